import Verif.RotateLemmas
import Verif.RotationSpec
import Verif.Props.Translate

/-!
# Properties of `rotate` (C26 to C28)
-/

namespace Bf2

variable {F : Type} [FArith F] [Libm F]

/-! ## A sample: position, normal, one texture coordinate pair -/

def vecAttrs : List VAttr := [⟨0, 0, 2, 0⟩, ⟨0, 12, 2, 3⟩, ⟨0, 24, 1, 5⟩, ⟨255, 0, 17, 0⟩]

/-- Two vertices in two materials. -/
def rotatable {F : Type} (z : F) (vs : List F) : Mesh F :=
  meshOf z vecAttrs 32 2 [[(0, 1, 0, 3), (1, 1, 3, 3)]] vs [0, 0, 0, 0, 0, 0]

theorem rotatable_tiled {F : Type} (z : F) (vs : List F) (h : vs.length = 16) :
    TiledVerts 8 (rotatable z vs) where
  pos := by decide
  size := ⟨[3, 3, 2], rfl, rfl⟩
  nonneg := by simp [rotatable, meshOf, geomOf, matOf, Mesh.mats, Geom.mats]
  start := starts_of rfl
  total := by
    change (vs.length : Int) = _
    rw [h]; rfl

theorem rotatable_float3 {F : Type} (z : F) (vs : List F) : Float3Vectors 8 (rotatable z vs) := by
  intro a ha hv
  simp only [rotatable, meshOf, vecAttrs, List.mem_cons, List.not_mem_nil, or_false] at ha
  rcases ha with rfl | rfl | rfl | rfl
  · exact ⟨rfl, 0, show StartsAt 4 _ _ by decide, by decide⟩
  · exact ⟨rfl, 3, show StartsAt 4 _ _ by decide, by decide⟩
  · exact absurd hv (by decide)
  · exact absurd hv (by decide)

theorem rotatable_apart {F : Type} (z : F) (vs : List F) :
    (rotatable z vs).vattrs.Pairwise (Apart (rotatable z vs).vertformat) := by
  change vecAttrs.Pairwise (Apart 4)
  simp only [vecAttrs, List.pairwise_cons, List.mem_cons, List.not_mem_nil, or_false,
    forall_eq_or_imp, forall_eq, List.Pairwise.nil, and_true, false_imp_iff, implies_true]
  refine ⟨⟨?_, ?_, ?_⟩, ⟨?_, ?_⟩, ?_⟩
  · intro _ _ o p ho hp
    have h1 := ho.2.1
    have h2 := hp.2.1
    simp only at h1 h2
    omega
  · intro _ h; exact absurd h (by decide)
  · intro _ h; exact absurd h (by decide)
  · intro _ h; exact absurd h (by decide)
  · intro _ h; exact absurd h (by decide)
  · intro _ h; exact absurd h (by decide)

/-! ## C26: rotate changes only position, normal and tangent -/

/-- After a successful `rotate` of a tiled mesh with `FLOAT3` vectors only the vertex array has
changed, it has kept its length, and so has every float that is not part of a position, normal or
tangent. -/
theorem C26_rotate_vectors_only {vs : Nat} {m : Mesh F} (tiled : TiledVerts vs m)
    (float3 : Float3Vectors vs m) (rotation : List F) (ok : (rotate m rotation).2 = none) :
    ∃ l : List F, rotate m rotation = ({ m with vertices := l }, none) ∧
      l.length = m.vertices.length ∧
      ∀ v c, c < vs → (∀ a ∈ m.vattrs, VectorAttr a → ∀ o, StartsAt m.vertformat a o →
        c < o ∨ o + 3 ≤ c) → l[v * vs + c]? = m.vertices[v * vs + c]? := by
  have h : rotate m rotation = ((rotate m rotation).1, none) := by rw [← ok]
  obtain ⟨y, p, r, rest, l, hr, hm, he⟩ := rotate_ok h
  obtain ⟨n, hn, _⟩ := tiled.count
  rw [editVertices_tiled tiled] at he
  have hrel := flatMapE_chunks_rel tiled.pos _ (fun v w =>
      ∀ c, (∀ a ∈ m.vattrs, VectorAttr a → ∀ o, StartsAt m.vertformat a o → c < o ∨ o + 3 ≤ c) →
        w[c]? = v[c]?) (fun v w hv hw => rotateVertex_frame float3 hv hw) n _ _ hn he
  refine ⟨l, by rw [h, hm], hrel.1.trans hn.symm, ?_⟩
  intro v c hc hcov
  rcases Nat.lt_or_ge v n with hvn | hvn
  · have := hrel.2 v hvn c hcov
    rwa [vertexAt_getElem? hc, vertexAt_getElem? hc] at this
  · have : n * vs ≤ v * vs := Nat.mul_le_mul_right _ hvn
    have := hrel.1
    rw [List.getElem?_eq_none (by omega), List.getElem?_eq_none (by omega)]

/-- When the sines and cosines of the angles exist (they do for finite angles), `rotate` succeeds
and applies one and the same map, which depends on the angles only, to every position, normal and
tangent of every tiled mesh with `FLOAT3` vectors that do not overlap. -/
theorem C26_one_map_for_all (y p r : F) (rest : List F)
    (defined : ∀ a ∈ [y, p, r], (Libm.cos (Libm.radians a)).isSome ∧
      (Libm.sin (Libm.radians a)).isSome) :
    ∃ R : Vec3 F → Vec3 F, ∀ (vs : Nat) (m : Mesh F), TiledVerts vs m → Float3Vectors vs m →
      m.vattrs.Pairwise (Apart m.vertformat) →
      ∃ l : List F, rotate m (y :: p :: r :: rest) = ({ m with vertices := l }, none) ∧
        ∀ a ∈ m.vattrs, VectorAttr a → ∀ o, StartsAt m.vertformat a o → ∀ v,
          vec3At l (v * vs + o) = (vec3At m.vertices (v * vs + o)).map R := by
  obtain ⟨cy, hcy⟩ := Option.isSome_iff_exists.1 (defined y (by simp)).1
  obtain ⟨sy, hsy⟩ := Option.isSome_iff_exists.1 (defined y (by simp)).2
  obtain ⟨cp, hcp⟩ := Option.isSome_iff_exists.1 (defined p (by simp)).1
  obtain ⟨sp, hsp⟩ := Option.isSome_iff_exists.1 (defined p (by simp)).2
  obtain ⟨cr, hcr⟩ := Option.isSome_iff_exists.1 (defined r (by simp)).1
  obtain ⟨sr, hsr⟩ := Option.isSome_iff_exists.1 (defined r (by simp)).2
  refine ⟨rotMap cy sy cp sp cr sr, ?_⟩
  intro vs m tiled float3 apart
  obtain ⟨l, h1, _, _, h4⟩ := rotate_tiled (rest := rest) tiled float3
    (y := y) (p := p) (r := r) ⟨⟨hcy, hsy⟩, ⟨hcp, hsp⟩, ⟨hcr, hsr⟩⟩
  exact ⟨l, h1, h4 apart⟩

/-- When `rotate` raises, the mesh is unchanged. -/
theorem C26_rotate_atomic (m : Mesh F) (rotation : List F) (h : (rotate m rotation).2 ≠ none) :
    (rotate m rotation).1 = m := by
  unfold rotate at h ⊢
  split at h
  · exact setVertices_err h
  · rfl

/-- Fewer than three angles: `IndexError`. -/
theorem C26_too_few_angles (m : Mesh F) (rotation : List F) (h : rotation.length < 3) :
    rotate m rotation = (m, some .indexError) := by
  unfold rotate
  split
  · simp at h; omega
  · rfl

theorem rotData_no_sine {r : Angles F} {x y z : F}
    (undefined : ∃ a ∈ [r.yaw, r.pitch, r.roll], Libm.cos a = none ∨ Libm.sin a = none) :
    rotData r [x, y, z] = .error .valueError := by
  have ok : ∀ {a : F} {w : F × F}, trig a = .ok w → ¬ (Libm.cos a = none ∨ Libm.sin a = none) := by
    rintro a w h (h' | h') <;> unfold trig at h <;> rw [h'] at h
    · cases h
    · split at h
      · next hs => cases hs
      · cases h
  have bad : ∀ {a : F} {e : Err}, trig a = .error e → e = .valueError := by
    intro a e h
    unfold trig at h
    split at h
    · cases h
    · cases h; rfl
  unfold rotData toVec3
  simp only
  rcases h1 : trig r.roll with e | w1
  · rw [bad h1]
  rcases h2 : trig r.pitch with e | w2
  · rw [bad h2]
  rcases h3 : trig r.yaw with e | w3
  · rw [bad h3]
  obtain ⟨a, ha, hu⟩ := undefined
  simp only [List.mem_cons, List.not_mem_nil, or_false] at ha
  rcases ha with rfl | rfl | rfl
  · exact absurd hu (ok h3)
  · exact absurd hu (ok h2)
  · exact absurd hu (ok h1)

theorem rotateVertex_undefined {vf : Int} {r : Angles F} {v : List F} {vs : Nat} (hv : v.length = vs)
    (undefined : ∃ a ∈ [r.yaw, r.pitch, r.roll], Libm.cos a = none ∨ Libm.sin a = none)
    (attrs : List VAttr)
    (float3 : ∀ a ∈ attrs, VectorAttr a → a.vartype = 2 ∧ ∃ o, StartsAt vf a o ∧ o + 3 ≤ vs)
    (vector : ∃ a ∈ attrs, VectorAttr a) :
    foldE (rotateAttr vf r) v attrs = .error .valueError := by
  induction attrs with
  | nil => obtain ⟨a, ha, -⟩ := vector; cases ha
  | cons b bs ih =>
    rw [foldE]
    by_cases hb : VectorAttr b
    · obtain ⟨ht, o, ho, hle⟩ := float3 b (by simp) hb
      obtain ⟨x, y, z, hs, -⟩ := toVec3_slice (l := v) (o := o) (by omega)
      have : rotateAttr vf r v b = .error .valueError := by
        unfold rotateAttr
        rw [if_neg hb.1, if_pos ((isVector_iff _).2 hb.2), attrPos_startsAt ho, ht]
        have hd : declLen 2 = .ok 3 := rfl
        rw [hd]
        simp only
        rw [hs, rotData_no_sine undefined]
      rw [this]
    · have : rotateAttr vf r v b = .ok v := by
        unfold rotateAttr
        by_cases hf : b.flag = 255
        · rw [if_pos hf]
        · rw [if_neg hf, if_neg]
          intro h
          exact hb ⟨hf, (isVector_iff _).1 h⟩
      rw [this]
      refine ih (fun a ha => float3 a (by simp [ha])) ?_
      obtain ⟨a, ha, hva⟩ := vector
      rcases List.mem_cons.1 ha with rfl | ha
      · exact absurd hva hb
      · exact ⟨a, ha, hva⟩

/-- An angle without sine or cosine (`math.sin` and `math.cos` of an infinite angle) makes `rotate`
raise `ValueError`, when there is something to rotate: a vertex, and a position, normal or tangent. -/
theorem C26_undefined_angle {vs : Nat} {m : Mesh F} (tiled : TiledVerts vs m)
    (float3 : Float3Vectors vs m) (vertex : m.vertices ≠ []) (vector : ∃ a ∈ m.vattrs, VectorAttr a)
    (y p r : F) (rest : List F)
    (undefined : ∃ a ∈ [y, p, r], Libm.cos (Libm.radians a) = none ∨ Libm.sin (Libm.radians a) = none) :
    rotate m (y :: p :: r :: rest) = (m, some .valueError) := by
  have hu : ∃ a ∈ [Libm.radians y, Libm.radians p, Libm.radians r],
      Libm.cos a = none ∨ Libm.sin a = none := by
    obtain ⟨a, ha, h⟩ := undefined
    exact ⟨Libm.radians a, List.mem_map.2 ⟨a, ha, rfl⟩, h⟩
  unfold rotate
  simp only
  rw [editVertices_tiled tiled]
  obtain ⟨n, hn, -⟩ := tiled.count
  have hpos := tiled.pos
  rcases n with _ | n
  · rw [Nat.zero_mul] at hn
    exact absurd (List.length_eq_zero_iff.1 hn) vertex
  have hsplit : m.vertices = m.vertices.take vs ++ m.vertices.drop vs := (List.take_append_drop ..).symm
  have hl : (m.vertices.take vs).length = vs := by
    rw [List.length_take, hn, Nat.succ_mul]
    omega
  rw [hsplit, chunks_append hpos _ _ hl, flatMapE]
  have : rotateVertex m ⟨Libm.radians y, Libm.radians p, Libm.radians r⟩ (m.vertices.take vs) =
      .error .valueError := rotateVertex_undefined hl hu _ float3 vector
  rw [this]
  rfl

/-- A stand-in for `math` for which 1 has no sine. -/
@[reducible] def noSine : Libm F64 :=
  ⟨id, fun x => if x = flt 1 then none else some (flt 0), fun x => if x = flt 1 then none else some (flt 1)⟩

attribute [local instance] noSine in
example : ∃ (m : Mesh F64) (y p r : F64), TiledVerts 8 m ∧ Float3Vectors 8 m ∧ m.vertices ≠ [] ∧
    (∃ a ∈ m.vattrs, VectorAttr a) ∧
    ∃ a ∈ [y, p, r], Libm.cos (Libm.radians a) = none ∨ Libm.sin (Libm.radians a) = none :=
  ⟨rotatable (flt 0) ((List.range 16).map flt), flt 0, flt 1, flt 0, rotatable_tiled _ _ rfl,
    rotatable_float3 _ _, by decide +kernel, ⟨⟨0, 0, 2, 0⟩, by decide +kernel, by decide, by decide⟩,
    flt 1, by simp, .inl (by decide +kernel)⟩

/-- A stand-in for `math` on doubles, for examples: a quarter turn whatever the angle. -/
@[reducible] def quarterTurn : Libm F64 := ⟨id, fun _ => some (flt 1), fun _ => some (flt 0)⟩

attribute [local instance] quarterTurn in
example : ∃ (m : Mesh F64) (rotation : List F64), TiledVerts 8 m ∧ Float3Vectors 8 m ∧
    m.vattrs.Pairwise (Apart m.vertformat) ∧ (rotate m rotation).2 = none ∧
    (rotate m rotation).1 ≠ m :=
  ⟨rotatable (flt 0) ((List.range 16).map flt), [flt 0, flt 0, flt 0], rotatable_tiled _ _ rfl,
    rotatable_float3 _ _, rotatable_apart _ _, by decide +kernel, by decide +kernel⟩

/-! ## C27: a rigid rotation, in exact arithmetic -/

section exact
open Real

/-- The matrix is a proper rotation: orthogonal with determinant one. -/
theorem C27_special_orthogonal (yaw pitch roll : ℝ) :
    rotMat yaw pitch roll ∈ Matrix.specialOrthogonalGroup (Fin 3) ℝ := by
  have hy : ∀ t, yawMat t ∈ Matrix.specialOrthogonalGroup (Fin 3) ℝ := by
    intro t
    rw [Matrix.mem_specialOrthogonalGroup_iff, Matrix.mem_orthogonalGroup_iff]
    have := sin_sq_add_cos_sq t
    constructor
    · ext i j
      fin_cases i <;> fin_cases j <;>
        simp [yawMat, Matrix.mul_apply, Fin.sum_univ_three] <;> nlinarith
    · simp [yawMat, Matrix.det_fin_three]; nlinarith
  have hp : ∀ t, pitchMat t ∈ Matrix.specialOrthogonalGroup (Fin 3) ℝ := by
    intro t
    rw [Matrix.mem_specialOrthogonalGroup_iff, Matrix.mem_orthogonalGroup_iff]
    have := sin_sq_add_cos_sq t
    constructor
    · ext i j
      fin_cases i <;> fin_cases j <;>
        simp [pitchMat, Matrix.mul_apply, Fin.sum_univ_three] <;> nlinarith
    · simp [pitchMat, Matrix.det_fin_three]; nlinarith
  have hr : ∀ t, rollMat t ∈ Matrix.specialOrthogonalGroup (Fin 3) ℝ := by
    intro t
    rw [Matrix.mem_specialOrthogonalGroup_iff, Matrix.mem_orthogonalGroup_iff]
    have := sin_sq_add_cos_sq t
    constructor
    · ext i j
      fin_cases i <;> fin_cases j <;>
        simp [rollMat, Matrix.mul_apply, Fin.sum_univ_three] <;> nlinarith
    · simp [rollMat, Matrix.det_fin_three]; nlinarith
  exact Submonoid.mul_mem _ (Submonoid.mul_mem _ (hy _) (hp _)) (hr _)

theorem rotMap_real (yaw pitch roll : ℝ) (v : Vec3 ℝ) :
    (rotMap (cos (deg yaw)) (sin (deg yaw)) (cos (deg pitch)) (sin (deg pitch)) (cos (deg roll))
      (sin (deg roll)) v).fn = (rotMat yaw pitch roll).mulVec v.fn := by
  unfold rotMat
  rw [← Matrix.mulVec_mulVec, ← Matrix.mulVec_mulVec]
  ext i
  fin_cases i <;>
    simp [rotMap, rotYaw, rotPitch, rotRoll, Vec3.fn, yawMat, pitchMat, rollMat, Matrix.mulVec,
      dotProduct, Fin.sum_univ_three, add_real, sub_real, mul_real] <;> ring

/-- In exact arithmetic `rotate` multiplies every position, normal and tangent of a tiled mesh (with
`FLOAT3` vectors that do not overlap) by the rotation matrix of the three angles, in degrees. -/
theorem C27_rotation_matrix {vs : Nat} {m : Mesh ℝ} (tiled : TiledVerts vs m)
    (float3 : Float3Vectors vs m) (apart : m.vattrs.Pairwise (Apart m.vertformat))
    (yaw pitch roll : ℝ) (rest : List ℝ) :
    ∃ l : List ℝ, rotate m (yaw :: pitch :: roll :: rest) = ({ m with vertices := l }, none) ∧
      ∀ a ∈ m.vattrs, VectorAttr a → ∀ o, StartsAt m.vertformat a o → ∀ v x,
        vec3At m.vertices (v * vs + o) = some x → ∃ x', vec3At l (v * vs + o) = some x' ∧
          x'.fn = (rotMat yaw pitch roll).mulVec x.fn := by
  obtain ⟨l, h1, _, _, h4⟩ := rotate_tiled (rest := rest) tiled float3
    (y := yaw) (p := pitch) (r := roll) (cy := cos (deg yaw)) (sy := sin (deg yaw))
    (cp := cos (deg pitch)) (sp := sin (deg pitch)) (cr := cos (deg roll)) (sr := sin (deg roll))
    ⟨⟨rfl, rfl⟩, ⟨rfl, rfl⟩, ⟨rfl, rfl⟩⟩
  refine ⟨l, h1, ?_⟩
  intro a ha hav o ho v x hx
  have := h4 apart a ha hav o ho v
  rw [hx, Option.map_some] at this
  exact ⟨_, this, rotMap_real _ _ _ _⟩

/-- Dot products, hence lengths and angles, between any two vectors of the mesh stay the same. -/
theorem C27_dot_products_kept {vs : Nat} {m : Mesh ℝ} (tiled : TiledVerts vs m)
    (float3 : Float3Vectors vs m) (apart : m.vattrs.Pairwise (Apart m.vertformat))
    (rotation : List ℝ) (three : 3 ≤ rotation.length)
    {a b : VAttr} (ha : a ∈ m.vattrs) (hb : b ∈ m.vattrs) (hav : VectorAttr a) (hbv : VectorAttr b)
    {o p : Nat} (ho : StartsAt m.vertformat a o) (hp : StartsAt m.vertformat b p)
    {v w : Nat} {x y : Vec3 ℝ} (hx : vec3At m.vertices (v * vs + o) = some x)
    (hy : vec3At m.vertices (w * vs + p) = some y) :
    ∃ x' y', vec3At (rotate m rotation).1.vertices (v * vs + o) = some x' ∧
      vec3At (rotate m rotation).1.vertices (w * vs + p) = some y' ∧
      dotProduct x'.fn y'.fn = dotProduct x.fn y.fn := by
  match rotation, three with
  | yaw :: pitch :: roll :: rest, _ =>
    obtain ⟨l, h1, h2⟩ := C27_rotation_matrix tiled float3 apart yaw pitch roll rest
    obtain ⟨x', hx', ex⟩ := h2 a ha hav o ho v x hx
    obtain ⟨y', hy', ey⟩ := h2 b hb hbv p hp w y hy
    refine ⟨x', y', by rw [h1]; exact hx', by rw [h1]; exact hy', ?_⟩
    have hO := ((Matrix.mem_specialOrthogonalGroup_iff).1 (C27_special_orthogonal yaw pitch roll)).1
    rw [Matrix.mem_orthogonalGroup_iff'] at hO
    rw [ex, ey, Matrix.dotProduct_mulVec, Matrix.vecMul_mulVec, ← Matrix.dotProduct_mulVec]
    have hO' : (rotMat yaw pitch roll).transpose * rotMat yaw pitch roll = 1 := by
      simpa [Matrix.star_eq_conjTranspose] using hO
    rw [hO', Matrix.one_mulVec]

theorem rotMap_zero (v : Vec3 ℝ) :
    rotMap (cos 0) (sin 0) (cos 0) (sin 0) (cos 0) (sin 0) v = v := by
  simp [rotMap, rotYaw, rotPitch, rotRoll, add_real, sub_real, mul_real]

/-- Rotating by zero angles changes nothing. -/
theorem C27_zero_rotation {vs : Nat} {m : Mesh ℝ} (tiled : TiledVerts vs m)
    (float3 : Float3Vectors vs m) : rotate m [0, 0, 0] = (m, none) := by
  have hrad : (Libm.radians (0 : ℝ)) = 0 := by simp [Libm.radians]
  have htr : Trig (⟨0, 0, 0⟩ : Angles ℝ) (cos 0) (sin 0) (cos 0) (sin 0) (cos 0) (sin 0) :=
    ⟨⟨rfl, rfl⟩, ⟨rfl, rfl⟩, ⟨rfl, rfl⟩⟩
  obtain ⟨n, hn, _⟩ := tiled.count
  have hid : ∀ v : List ℝ, v.length = vs → rotateVertex m ⟨0, 0, 0⟩ v = .ok v := by
    intro v hv
    obtain ⟨w, hw, rfl⟩ := foldE_ok (f := rotateAttr m.vertformat (⟨0, 0, 0⟩ : Angles ℝ))
      (l := m.vattrs) (fun u => u = v) (by
        rintro s a ha rfl
        by_cases hav : VectorAttr a
        · obtain ⟨hty, o, ho, hov⟩ := float3 a ha hav
          obtain ⟨u, x, y, z, hu, _, hx, hy, hz, huc⟩ := rotateAttr_eq htr hav hty ho (hv ▸ hov)
          refine ⟨u, hu, ?_⟩
          apply List.ext_getElem?
          intro c
          rw [huc, rotMap_zero]
          split
          · subst_vars; exact hx.symm
          split
          · subst_vars; exact hy.symm
          split
          · subst_vars; exact hz.symm
          · rfl
        · exact ⟨s, rotateAttr_skip hav, rfl⟩) (s := v) rfl
    exact hw
  unfold rotate
  simp only [hrad]
  rw [editVertices_tiled tiled, flatMapE_ok _ id _ (fun c hc =>
    hid c (chunks_length _ _ hc n hn))]
  have hflat : (chunks vs m.vertices).flatMap id = m.vertices := by
    refine vertices_induction (vs := vs) (P := fun l => (chunks vs l).flatMap id = l) ?_ ?_ n _ hn
    · rw [chunks_nil tiled.pos]; rfl
    · intro a b ha ih
      rw [chunks_append tiled.pos a b ha, List.flatMap_cons, ih]; rfl
  rw [hflat]
  rfl

example : ∃ (m : Mesh ℝ) (x : Vec3 ℝ), TiledVerts 8 m ∧ Float3Vectors 8 m ∧
    m.vattrs.Pairwise (Apart m.vertformat) ∧
    (∃ a ∈ m.vattrs, VectorAttr a ∧ StartsAt m.vertformat a 3) ∧
    vec3At m.vertices (1 * 8 + 3) = some x :=
  ⟨rotatable 0 [0, 1, 2, 3, 4, 5, 6, 7, 8, 9, 10, 11, 12, 13, 14, 15], ⟨11, 12, 13⟩,
    rotatable_tiled _ _ rfl, rotatable_float3 _ _, rotatable_apart _ _,
    ⟨⟨0, 12, 2, 3⟩, by simp [rotatable, meshOf, vecAttrs], by decide,
      show StartsAt 4 _ _ by decide⟩, rfl⟩

end exact

/-! ## C28: FLOAT4 vectors shrink -/

/-- If a position, normal or tangent is declared `FLOAT4`, a successful `rotate` leaves every vertex
at least one float short: `n` vertices of `vs` floats become at most `n * (vs - 1)` floats. -/
theorem C28_float4_shrinks {vs n : Nat} {m : Mesh F} (tiled : TiledVerts vs m)
    (hn : m.vertices.length = n * vs) {a : VAttr} (ha : a ∈ m.vattrs) (hv : VectorAttr a)
    (float4 : a.vartype = 3) {o : Nat} (ho : StartsAt m.vertformat a o) (fits : o + 4 ≤ vs)
    (rotation : List F) (ok : (rotate m rotation).2 = none) :
    (rotate m rotation).1.vertices.length ≤ n * (vs - 1) := by
  have h : rotate m rotation = ((rotate m rotation).1, none) := by rw [← ok]
  obtain ⟨y, p, r, rest, l, hr, hm, he⟩ := rotate_ok h
  rw [editVertices_tiled tiled] at he
  rw [hm]
  refine (flatMapE_chunks_length tiled.pos _ (vs - 1) n _ _ hn he).1 ?_
  intro v w hl hw
  have := rotateAttrs_shrink ha hv float4 ho (by omega) hw
  omega

/-- If it is the only one, every vertex is exactly one float short. -/
theorem C28_one_float4 {vs n : Nat} {m : Mesh F} (tiled : TiledVerts vs m)
    (hn : m.vertices.length = n * vs) {a : VAttr} {pre post : List VAttr}
    (ha : m.vattrs = pre ++ a :: post) (hv : VectorAttr a)
    (float4 : a.vartype = 3) {o : Nat} (ho : StartsAt m.vertformat a o) (fits : o + 4 ≤ vs)
    (only : ∀ b ∈ pre ++ post, VectorAttr b → b.vartype ≠ 3)
    (rotation : List F) (ok : (rotate m rotation).2 = none) :
    (rotate m rotation).1.vertices.length = n * (vs - 1) := by
  have h : rotate m rotation = ((rotate m rotation).1, none) := by rw [← ok]
  obtain ⟨y, p, r, rest, l, hr, hm, he⟩ := rotate_ok h
  rw [editVertices_tiled tiled] at he
  rw [hm]
  refine (flatMapE_chunks_length tiled.pos _ (vs - 1) n _ _ hn he).2 ?_
  intro v w hl hw
  rw [rotateVertex, ha] at hw
  have := rotateAttrs_shrink_one hv float4 ho (by omega)
    (fun b hb => only b (by simp [hb])) (fun b hb => only b (by simp [hb])) hw
  omega

/-- So a mesh whose vertex array matched its stride, format and count no longer does. -/
theorem C28_stride_mismatch {vs : Nat} {m : Mesh F} (tiled : TiledVerts vs m)
    (vertex : m.vertices ≠ []) (consistent : (m.vertices.length : Int) = m.announced)
    {a : VAttr} (ha : a ∈ m.vattrs) (hv : VectorAttr a)
    (float4 : a.vartype = 3) {o : Nat} (ho : StartsAt m.vertformat a o) (fits : o + 4 ≤ vs)
    (rotation : List F) (ok : (rotate m rotation).2 = none) :
    ((rotate m rotation).1.vertices.length : Int) ≠ (rotate m rotation).1.announced := by
  obtain ⟨n, hn, _⟩ := tiled.count
  have h1 := C28_float4_shrinks tiled hn ha hv float4 ho fits rotation ok
  have h : rotate m rotation = ((rotate m rotation).1, none) := by rw [← ok]
  obtain ⟨y, p, r, rest, l, hr, hm, he⟩ := rotate_ok h
  have h2 : (rotate m rotation).1.announced = m.announced := by rw [hm]; rfl
  rw [h2, ← consistent, hn]
  have : n ≠ 0 := by
    rintro rfl
    exact vertex (List.length_eq_zero_iff.1 (by simpa using hn))
  have h3 : n * (vs - 1) + n = n * vs := by
    have := tiled.pos
    rw [← Nat.mul_succ]; congr 1; omega
  omega

/-- A tangent of four floats after the position. -/
def float4Attrs : List VAttr := [⟨0, 0, 2, 0⟩, ⟨0, 12, 3, 6⟩]

attribute [local instance] quarterTurn in
example : ∃ (m : Mesh F64) (a : VAttr) (rotation : List F64), TiledVerts 7 m ∧ m.vertices ≠ [] ∧
    (m.vertices.length : Int) = m.announced ∧ a ∈ m.vattrs ∧ VectorAttr a ∧ a.vartype = 3 ∧
    StartsAt m.vertformat a 3 ∧ 3 + 4 ≤ 7 ∧ (rotate m rotation).2 = none ∧
    (rotate m rotation).1.vertices.length = 12 :=
  ⟨meshOf (flt 0) float4Attrs 28 2 [[(0, 2, 0, 3)]] ((List.range 14).map flt) [0, 0, 0],
    ⟨0, 12, 3, 6⟩, [flt 0, flt 0, flt 0],
    ⟨by decide, ⟨[3, 4], rfl, rfl⟩, by decide, starts_of rfl, by decide⟩,
    by decide, by decide +kernel, by decide, by decide, by decide, by decide, by decide,
    by decide +kernel, by decide +kernel⟩

end Bf2
