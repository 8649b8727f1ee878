import Verif.OldRotateLemmas
import Verif.Props.OldTransform
import Verif.Props.Rotate

/-!
# The rotation of `/repo/deprecated/modmesh.py`: C99
-/

namespace Bf2

variable {F : Type}

/-! ## C99: rotate -/

section
variable [FArith F] [Libm F]

/-- For given angles there is one map of vectors, such that on every packed mesh with positions,
normals and tangents whose materials tile the vertex array and have bounds, `rotate` succeeds, maps
these three vectors of every vertex, keeps all other floats, and grows bounds to the new positions. -/
theorem C99_one_map [LawfulLt F] (y p r : F) (rest : List F)
    (defined : ∀ a ∈ [y, p, r], (Libm.cos (Libm.radians a)).isSome ∧
      (Libm.sin (Libm.radians a)).isSome) :
    ∃ R : Vec3 F → Vec3 F, ∀ (vs oP oN oT : Nat) (m : OldMesh F), Packed vs m → OldTiled m →
      Float3At m.vertformat m.vattrs 0 oP → Float3At m.vertformat m.vattrs 3 oN →
      Float3At m.vertformat m.vattrs 6 oT → HasBounds m → m.vertices.length ≤ 2 ^ 53 →
      ∃ l gs, oldRotate m (y :: p :: r :: rest) =
          ({ m with vertices := l, vertsList := false, geoms := gs }, none) ∧
        l.length = m.vertices.length ∧
        (∀ i : Nat, (i : Int) < m.vertnum → ∀ o ∈ [oP, oN, oT],
          vec3At l (i * vs + o) = (vec3At m.vertices (i * vs + o)).map R) ∧
        (∀ i c, c < vs → (∀ o ∈ [oP, oN, oT], c < o ∨ o + 3 ≤ c) →
          l[i * vs + c]? = m.vertices[i * vs + c]?) ∧
        BoundsGrown vs oP { m with vertices := l, vertsList := false } gs := by
  obtain ⟨cy, hcy⟩ := Option.isSome_iff_exists.1 (defined y (by simp)).1
  obtain ⟨sy, hsy⟩ := Option.isSome_iff_exists.1 (defined y (by simp)).2
  obtain ⟨cp, hcp⟩ := Option.isSome_iff_exists.1 (defined p (by simp)).1
  obtain ⟨sp, hsp⟩ := Option.isSome_iff_exists.1 (defined p (by simp)).2
  obtain ⟨cr, hcr⟩ := Option.isSome_iff_exists.1 (defined r (by simp)).1
  obtain ⟨sr, hsr⟩ := Option.isSome_iff_exists.1 (defined r (by simp)).2
  exact ⟨rotMap cy sy cp sp cr sr, fun vs oP oN oT m packed tiled h0 h3 h6 bounds small =>
    oldRotate_tiled packed tiled h0 h3 h6 bounds small ⟨⟨hcy, hsy⟩, ⟨hcp, hsp⟩, ⟨hcr, hsr⟩⟩ rest⟩

/-- With fewer than three angles, `IndexError`; nothing is changed. -/
theorem C99_too_few_angles (m : OldMesh F) (rotation : List F) (h : rotation.length < 3) :
    oldRotate m rotation = (m, some .indexError) := by
  unfold oldRotate
  split
  · simp at h; omega
  · rfl

/-- If positions, normals or tangents are missing from the table and some material has a vertex,
`AttributeError`; nothing is changed. -/
theorem C99_missing_attribute {vs : Nat} {m : OldMesh F} (packed : Packed vs m) (exist : VertsExist m)
    (some_vertex : ∃ a ∈ m.mats, 0 < a.vnum) {u : Int} (hu : u = 0 ∨ u = 3 ∨ u = 6)
    (missing : ∀ a ∈ m.vattrs, a.flag ≠ 255 → a.usage ≠ u) (y p r : F) (rest : List F) :
    oldRotate m (y :: p :: r :: rest) = (m, some .attributeError) :=
  oldEdit_first packed exist some_vertex fun v _ _ hv => by
    have : v u = none := hv u (by
      intro h
      obtain ⟨a, ha, rfl⟩ := List.mem_map.1 h
      obtain ⟨ha1, ha2⟩ := List.mem_filter.1 ha
      exact missing a ha1 (by simpa using ha2) rfl)
    unfold oldRotateVertex
    rcases hu with rfl | rfl | rfl
    · rw [this]
    · rw [this]; cases v 0 <;> rfl
    · rw [this]; cases v 0 <;> cases v 3 <;> rfl

/-- An angle without sine or cosine (infinite), and some material has a vertex: `ValueError`;
nothing is changed. -/
theorem C99_undefined_angle {vs oP oN oT : Nat} {m : OldMesh F} (packed : Packed vs m)
    (exist : VertsExist m) (some_vertex : ∃ a ∈ m.mats, 0 < a.vnum)
    (pos : Float3At m.vertformat m.vattrs 0 oP) (normal : Float3At m.vertformat m.vattrs 3 oN)
    (tangent : Float3At m.vertformat m.vattrs 6 oT) (y p r : F) (rest : List F)
    (undefined : ∃ a ∈ [y, p, r], Libm.cos (Libm.radians a) = none ∨
      Libm.sin (Libm.radians a) = none) :
    oldRotate m (y :: p :: r :: rest) = (m, some .valueError) :=
  oldEdit_first packed exist some_vertex fun v w hv _ => by
    obtain ⟨k, n, t, e1, e2, e3, -⟩ := hv.turned3 packed.table pos normal tangent
    unfold oldRotateVertex
    rw [e1, e2, e3]
    simp only [rotData_undefined undefined]

/-- On the meshes both modules can rotate, they compute the same floats. -/
theorem C99_same_as_package {vs oP oN oT : Nat} {m : Mesh F} (packed : Packed vs m.old)
    (tiled : TiledVerts vs m) (plain : ∀ a ∈ m.vattrs, a.signed = a)
    (pos : Float3At m.vertformat m.vattrs 0 oP) (normal : Float3At m.vertformat m.vattrs 3 oN)
    (tangent : Float3At m.vertformat m.vattrs 6 oT) (small : m.vertices.length ≤ 2 ^ 53)
    (y p r : F) (rest : List F)
    (defined : ∀ a ∈ [y, p, r], (Libm.cos (Libm.radians a)).isSome ∧
      (Libm.sin (Libm.radians a)).isSome) :
    (oldRotate m.old (y :: p :: r :: rest)).1.vertices = (rotate m (y :: p :: r :: rest)).1.vertices ∧
      (rotate m (y :: p :: r :: rest)).2 = none := by
  obtain ⟨cy, hcy⟩ := Option.isSome_iff_exists.1 (defined y (by simp)).1
  obtain ⟨sy, hsy⟩ := Option.isSome_iff_exists.1 (defined y (by simp)).2
  obtain ⟨cp, hcp⟩ := Option.isSome_iff_exists.1 (defined p (by simp)).1
  obtain ⟨sp, hsp⟩ := Option.isSome_iff_exists.1 (defined p (by simp)).2
  obtain ⟨cr, hcr⟩ := Option.isSome_iff_exists.1 (defined r (by simp)).1
  obtain ⟨sr, hsr⟩ := Option.isSome_iff_exists.1 (defined r (by simp)).2
  exact oldRotate_package packed tiled plain pos normal tangent small
    ⟨⟨hcy, hsy⟩, ⟨hcp, hsp⟩, ⟨hcr, hsr⟩⟩ rest

end

/-- In exact arithmetic, the map is the rotation matrix of the three angles, in degrees. -/
theorem C99_rotation_matrix {vs oP oN oT : Nat} {m : OldMesh ℝ} (packed : Packed vs m)
    (tiled : OldTiled m) (pos : Float3At m.vertformat m.vattrs 0 oP)
    (normal : Float3At m.vertformat m.vattrs 3 oN) (tangent : Float3At m.vertformat m.vattrs 6 oT)
    (bounds : HasBounds m) (small : m.vertices.length ≤ 2 ^ 53) (yaw pitch roll : ℝ) (rest : List ℝ) :
    ∃ l gs, oldRotate m (yaw :: pitch :: roll :: rest) =
        ({ m with vertices := l, vertsList := false, geoms := gs }, none) ∧
      ∀ i : Nat, (i : Int) < m.vertnum → ∀ o ∈ [oP, oN, oT], ∃ x x' : Vec3 ℝ,
        vec3At m.vertices (i * vs + o) = some x ∧ vec3At l (i * vs + o) = some x' ∧
        x'.fn = (rotMat yaw pitch roll).mulVec x.fn := by
  obtain ⟨l, gs, h1, -, h2, -⟩ := oldRotate_tiled packed tiled pos normal tangent bounds small
    (y := yaw) (p := pitch) (r := roll) (cy := Real.cos (deg yaw)) (sy := Real.sin (deg yaw))
    (cp := Real.cos (deg pitch)) (sp := Real.sin (deg pitch)) (cr := Real.cos (deg roll))
    (sr := Real.sin (deg roll)) ⟨⟨rfl, rfl⟩, ⟨rfl, rfl⟩, ⟨rfl, rfl⟩⟩ rest
  obtain ⟨n, hn, hlen⟩ := packed.num
  refine ⟨l, gs, h1, fun i hi o ho => ?_⟩
  have hx : ∃ x, vec3At m.vertices (i * vs + o) = some x := by
    obtain ⟨v, -, hv⟩ := getVertex_holds packed.table i (by
      rw [hlen]; exact Nat.mul_le_mul_right _ (by omega))
    have key : ∀ u q, Float3At m.vertformat m.vattrs u q →
        ∃ x, vec3At m.vertices (i * vs + q) = some x := by
      intro u q hq
      obtain ⟨x, hx, -⟩ := hv.turned packed.table hq
      exact ⟨x, by rw [← vec3At_vert (packed.table.packs.fits packed.table.format hq)]; exact hx⟩
    simp only [List.mem_cons, List.not_mem_nil, or_false] at ho
    rcases ho with rfl | rfl | rfl
    · exact key _ _ pos
    · exact key _ _ normal
    · exact key _ _ tangent
  obtain ⟨x, hx⟩ := hx
  refine ⟨x, _, hx, by rw [h2 i hi o ho, hx]; rfl, rotMap_real yaw pitch roll x⟩

/-- Position, normal, tangent. -/
def turningAttrs : List VAttr := [⟨0, 0, 2, 0⟩, ⟨0, 12, 2, 3⟩, ⟨0, 24, 2, 6⟩, ⟨255, 0, 17, 0⟩]

/-- Two vertices in two materials. -/
def turningMesh (z : F) (vs : List F) : Mesh F :=
  meshOf z turningAttrs 36 2 [[(0, 1, 0, 3), (1, 1, 3, 3)]] vs [0, 0, 0, 0, 0, 0]

theorem turningTable : PackedTable 9 4 36 turningAttrs where
  pos := by decide
  small := by decide
  format := by decide
  stride := by decide
  known := by decide
  packs := .used (n := 3) (by decide) rfl (by decide) (.used (n := 3) (by decide) rfl (by decide)
    (.used (n := 3) (by decide) rfl (by decide) (.unused rfl .done)))
  distinct := by decide

attribute [local instance] quarterTurn in
/-- A quarter turn about each axis, by both modules. -/
example : Packed 9 (turningMesh (flt 0) ((List.range 18).map flt)).old ∧
    TiledVerts 9 (turningMesh (flt 0) ((List.range 18).map flt)) ∧
    Float3At 4 turningAttrs 0 0 ∧ Float3At 4 turningAttrs 3 3 ∧ Float3At 4 turningAttrs 6 6 ∧
    (∀ a ∈ turningAttrs, a.signed = a) ∧
    (oldRotate ((turningMesh (flt 0) ((List.range 18).map flt)).old.bound ⟨flt 0, flt 0, flt 0⟩
      ⟨flt 0, flt 0, flt 0⟩) [flt 0, flt 0, flt 0]).2 = none ∧
    ((oldRotate (turningMesh (flt 0) ((List.range 18).map flt)).old
      [flt 0, flt 0, flt 0]).1.vertices.drop 15) = [flt 15, (flt 17).negate, flt 16] :=
  ⟨⟨turningTable, rfl⟩, ⟨by decide, ⟨[3, 3, 3], rfl, rfl⟩, by decide, starts_of rfl, by decide⟩,
    ⟨⟨0, 0, 2, 0⟩, by decide, by decide⟩, ⟨⟨0, 12, 2, 3⟩, by decide, by decide⟩,
    ⟨⟨0, 24, 2, 6⟩, by decide, by decide⟩, by decide, by decide +kernel, by decide +kernel⟩

attribute [local instance] quarterTurn in
/-- Without tangents the package rotates what is there, the deprecated module raises. -/
theorem C99_package_needs_no_tangent : ∃ (m : Mesh F64) (rotation : List F64), Packed 8 m.old ∧
    OldTiled m.old ∧ (oldRotate m.old rotation).2 = some .attributeError ∧
    (rotate m rotation).2 = none ∧ (rotate m rotation).1.vertices ≠ m.vertices :=
  ⟨rotatable (flt 0) ((List.range 16).map flt), [flt 0, flt 0, flt 0],
    ⟨⟨by decide, by decide, by decide, by decide, by decide,
      .used (n := 3) (by decide) rfl (by decide) (.used (n := 3) (by decide) rfl (by decide)
        (.used (n := 2) (by decide) rfl (by decide) (.unused rfl .done))), by decide⟩, rfl⟩,
    ⟨by decide +kernel, starts_of rfl, by decide +kernel⟩, by decide +kernel, by decide +kernel,
    by decide +kernel⟩

end Bf2
