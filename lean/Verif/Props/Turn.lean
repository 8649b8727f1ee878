import Verif.TurnLemmas
import Verif.Props.Rotate
import Verif.Props.Format

/-! # C153: rotating by zero degrees in doubles

`StdMesh.rotate`, `visiblemesh.py:317-395`, computes `x * cos - y * sin` for every component even when
the angle is zero. Finite numbers survive this, except for the sign of a zero; an infinite one or a
NaN does not, and takes other components of its vector with it. -/

namespace Bf2

section
variable [Libm F64]

theorem turn_trig {y p r : F64} (hy : NoTurn y) (hp : NoTurn p) (hr : NoTurn r) :
    ∃ cy sy cp sp cr sr : F64,
      Trig ⟨Libm.radians y, Libm.radians p, Libm.radians r⟩ cy sy cp sp cr sr ∧
      (cy.isFin = true ∧ cy.value = 1 ∧ sy.mag = 0) ∧ (cp.isFin = true ∧ cp.value = 1 ∧ sp.mag = 0) ∧
      (cr.isFin = true ∧ cr.value = 1 ∧ sr.mag = 0) := by
  obtain ⟨cy, sy, e1, h1⟩ := hy.get
  obtain ⟨cp, sp, e2, h2⟩ := hp.get
  obtain ⟨cr, sr, e3, h3⟩ := hr.get
  exact ⟨cy, sy, cp, sp, cr, sr, ⟨e1, e2, e3⟩, h1, h2, h3⟩

/-- Rotating a mesh whose vectors are finite by angles that do not turn succeeds, changes nothing but
the vertex array, and there nothing but the sign of zeros in positions, normals and tangents: a
negative zero may have become a positive one. -/
theorem C153_kept {vs : Nat} {m : Mesh F64} (tiled : TiledVerts vs m) (float3 : Float3Vectors vs m)
    (apart : m.vattrs.Pairwise (Apart m.vertformat)) {y p r : F64} (rest : List F64)
    (hy : NoTurn y) (hp : NoTurn p) (hr : NoTurn r)
    (finite : ∀ i x, InVector vs m i → m.vertices[i]? = some x → x.isFin = true) :
    ∃ l, rotate m (y :: p :: r :: rest) = ({ m with vertices := l }, none) ∧
      l.length = m.vertices.length ∧
      ∀ i x, m.vertices[i]? = some x → ∃ x', l[i]? = some x' ∧ KeptZero x x' ∧
        (¬ InVector vs m i → x' = x) := by
  obtain ⟨cy, sy, cp, sp, cr, sr, htr, h1, h2, h3⟩ := turn_trig hy hp hr
  obtain ⟨l, hl, hlen, hout, hin⟩ := rotate_tiled tiled float3 (rest := rest) htr
  refine ⟨l, hl, hlen, fun i x hx => ?_⟩
  have hi : i / vs * vs + i % vs = i := by rw [Nat.mul_comm]; exact Nat.div_add_mod i vs
  have hmod : i % vs < vs := Nat.mod_lt _ tiled.pos
  by_cases hv : InVector vs m i
  · obtain ⟨a, ha, hav, o, ho, hlo, hhi⟩ := hv
    have hvec := hin apart a ha hav o ho (i / vs)
    obtain ⟨-, o', ho', hov⟩ := float3 a ha hav
    obtain rfl := startsAt_unique ho ho'
    have hil : i < m.vertices.length := (List.getElem?_eq_some_iff.1 hx).1
    obtain ⟨n, hn, -⟩ := tiled.count
    have hlt : i / vs < n := by
      rw [Nat.div_lt_iff_lt_mul tiled.pos]; omega
    have hbound : i / vs * vs + vs ≤ m.vertices.length := by
      have := Nat.mul_le_mul_right vs (Nat.succ_le_of_lt hlt)
      rw [Nat.succ_mul] at this; omega
    obtain ⟨v, hv3⟩ : ∃ v, vec3At m.vertices (i / vs * vs + o) = some v :=
      ⟨⟨m.vertices[i / vs * vs + o]'(by omega), m.vertices[i / vs * vs + o + 1]'(by omega),
        m.vertices[i / vs * vs + o + 2]'(by omega)⟩, by
        unfold vec3At
        rw [List.getElem?_eq_getElem (by omega), List.getElem?_eq_getElem (by omega),
          List.getElem?_eq_getElem (by omega)]⟩
    have hmemb : ∀ k, k < 3 → InVector vs m (i / vs * vs + o + k) := by
      intro k hk
      have e : (i / vs * vs + o + k) % vs = o + k := by
        rw [Nat.add_assoc, Nat.mul_comm, Nat.mul_add_mod]
        exact Nat.mod_eq_of_lt (by omega)
      exact ⟨a, ha, hav, o, ho, by omega, by omega⟩
    rw [hv3, Option.map_some] at hvec
    have hfin : v.Finite := by
      obtain ⟨q1, q2, q3⟩ := vec3At_turn.1 hv3
      exact ⟨finite _ _ (hmemb 0 (by omega)) q1, finite _ _ (hmemb 1 (by omega)) q2,
        finite _ _ (hmemb 2 (by omega)) q3⟩
    have hk := rotMap_kept (v := v) hfin h1 h2 h3
    obtain ⟨q1, q2, q3⟩ := vec3At_turn.1 hv3
    obtain ⟨w1, w2, w3⟩ := vec3At_turn.1 hvec
    have hcase : i = i / vs * vs + o ∨ i = i / vs * vs + o + 1 ∨ i = i / vs * vs + o + 2 := by omega
    have hin' : InVector vs m i := ⟨a, ha, hav, o, ho, hlo, hhi⟩
    rcases hcase with e | e | e
    · rw [← e] at q1 w1
      obtain rfl := Option.some.inj (hx.symm.trans q1)
      exact ⟨_, w1, hk.1, fun h => absurd hin' h⟩
    · rw [← e] at q2 w2
      obtain rfl := Option.some.inj (hx.symm.trans q2)
      exact ⟨_, w2, hk.2.1, fun h => absurd hin' h⟩
    · rw [← e] at q3 w3
      obtain rfl := Option.some.inj (hx.symm.trans q3)
      exact ⟨_, w3, hk.2.2, fun h => absurd hin' h⟩
  · have := hout (i / vs) (i % vs) hmod (fun a ha hav o ho => by
      by_contra hc
      exact hv ⟨a, ha, hav, o, ho, by omega, by omega⟩)
    rw [hi] at this
    exact ⟨x, by rw [this, hx], .inl rfl, fun _ => rfl⟩

/-- If moreover no vector has a negative zero, nothing changes at all. -/
theorem C153_unchanged {vs : Nat} {m : Mesh F64} (tiled : TiledVerts vs m)
    (float3 : Float3Vectors vs m) (apart : m.vattrs.Pairwise (Apart m.vertformat)) {y p r : F64}
    (rest : List F64) (hy : NoTurn y) (hp : NoTurn p) (hr : NoTurn r)
    (finite : ∀ i x, InVector vs m i → m.vertices[i]? = some x → x.isFin = true ∧ x ≠ minusZero) :
    rotate m (y :: p :: r :: rest) = (m, none) := by
  obtain ⟨l, hl, hlen, h⟩ := C153_kept tiled float3 apart rest hy hp hr
    (fun i x hi hx => (finite i x hi hx).1)
  rw [hl]
  have : l = m.vertices := by
    apply List.ext_getElem?
    intro i
    rcases hx : m.vertices[i]? with _ | x
    · rw [List.getElem?_eq_none_iff] at hx ⊢; omega
    · obtain ⟨x', hx', hk, ho⟩ := h i x hx
      rw [hx']
      by_cases hv : InVector vs m i
      · rcases hk with rfl | ⟨rfl, _⟩
        · rfl
        · exact absurd rfl (finite i _ hv hx).2
      · rw [ho hv]
  rw [this]

/-- Loading a file, rotating by zero and exporting gives the same file. -/
theorem C153_export (pl : Plat) (k : Kind) (file : Bytes) {vs : Nat} {m : Mesh F64}
    (hm : load pl k file = .ok m) (h1 : m.indexnum ≠ 1) (hs : NoSignalling pl k file)
    (tiled : TiledVerts vs m) (float3 : Float3Vectors vs m)
    (apart : m.vattrs.Pairwise (Apart m.vertformat)) {y p r : F64} (rest : List F64)
    (hy : NoTurn y) (hp : NoTurn p) (hr : NoTurn r)
    (finite : ∀ i x, InVector vs m i → m.vertices[i]? = some x → x.isFin = true ∧ x ≠ minusZero) :
    exportMesh pl (rotate m (y :: p :: r :: rest)).1 = ⟨file, none⟩ := by
  rw [C153_unchanged tiled float3 apart rest hy hp hr finite]
  exact C01_unmodified_export_identical pl k file m hm h1 hs

/-- Rotating by zero degrees does not leave every mesh as it is: the first component of a vector with
an infinite component or a NaN is a NaN afterwards, wherever in the vector it was. -/
theorem C153_not_finite {vs : Nat} {m : Mesh F64} (tiled : TiledVerts vs m)
    (float3 : Float3Vectors vs m) (apart : m.vattrs.Pairwise (Apart m.vertformat)) {y p r : F64}
    (rest : List F64) (hy : NoTurn y) (hp : NoTurn p) (hr : NoTurn r)
    {a : VAttr} (ha : a ∈ m.vattrs) (hav : VectorAttr a) {o : Nat}
    (ho : StartsAt m.vertformat a o) {i : Nat} {v : Vec3 F64}
    (hv : vec3At m.vertices (i * vs + o) = some v) (hbad : ¬ v.Finite) :
    ∃ x', (rotate m (y :: p :: r :: rest)).1.vertices[i * vs + o]? = some x' ∧ x'.isNaN = true := by
  obtain ⟨cy, sy, cp, sp, cr, sr, htr, h1, h2, h3⟩ := turn_trig hy hp hr
  obtain ⟨l, hl, -, -, hin⟩ := rotate_tiled tiled float3 (rest := rest) htr
  have := hin apart a ha hav o ho i
  rw [hv, Option.map_some] at this
  rw [hl]
  exact ⟨_, (vec3At_turn.1 this).1, rotMap_nan hbad h1.2.2 ⟨h2.2.1, h2.2.2⟩ h3.2.2⟩

end

/-- A stand-in for `math`, for examples: no turn whatever the angle. -/
@[reducible] def stillTurn : Libm F64 := ⟨id, fun _ => some plusZero, fun _ => some (flt 1)⟩

theorem still_noTurn (a : F64) : @NoTurn stillTurn a :=
  ⟨⟨flt 1, rfl, by decide +kernel, by rw [← toRat_eq]; decide +kernel⟩, by
    simp only [List.mem_cons]; exact .inl rfl⟩

/-- The vertices of the example: `x` first, then `-2.0`, then 2, 3, … -/
def turnVerts (x : F64) : List F64 :=
  x :: (flt 2).negate :: (List.range 14).map fun n => flt (n + 2)

/-- The sign of a zero can be lost: there is a mesh without infinities or NaNs that is not the same
after a rotation by zero degrees. -/
theorem C153_sign_lost : ∃ (_ : Libm F64) (m : Mesh F64) (a : F64), NoTurn a ∧
    TiledVerts 8 m ∧ Float3Vectors 8 m ∧ m.vattrs.Pairwise (Apart m.vertformat) ∧
    (∀ x ∈ m.vertices, x.isFin = true) ∧ m.vertices[0]? = some minusZero ∧
    (rotate m [a, a, a]).1.vertices[0]? = some plusZero ∧ (rotate m [a, a, a]).1 ≠ m :=
  ⟨stillTurn, rotatable (flt 0) (turnVerts minusZero), flt 0, still_noTurn _,
    rotatable_tiled _ _ rfl, rotatable_float3 _ _, rotatable_apart _ _, by decide +kernel,
    by decide +kernel, by decide +kernel, by decide +kernel⟩

attribute [local instance] stillTurn in
example : ∃ (m : Mesh F64) (y p r : F64), TiledVerts 8 m ∧ Float3Vectors 8 m ∧
    m.vattrs.Pairwise (Apart m.vertformat) ∧ NoTurn y ∧ NoTurn p ∧ NoTurn r ∧ InVector 8 m 0 ∧
    (∀ i x, InVector 8 m i → m.vertices[i]? = some x → x.isFin = true ∧ x ≠ minusZero) :=
  ⟨rotatable (flt 0) (turnVerts (flt 5)), flt 0, flt 0, flt 0, rotatable_tiled _ _ rfl,
    rotatable_float3 _ _, rotatable_apart _ _, still_noTurn _, still_noTurn _, still_noTurn _,
    ⟨⟨0, 0, 2, 0⟩, by decide +kernel, by decide, 0, show StartsAt 4 _ _ by decide, by decide, by decide⟩,
    fun i x _ hx => by
      have h : ∀ x ∈ turnVerts (flt 5), x.isFin = true ∧ x ≠ minusZero := by decide +kernel
      exact h x (List.mem_of_getElem? hx)⟩

/-- A file that meets the hypotheses of `C153_export`: it loads as the mesh of the last example. -/
example : let m := rotatable (flt 0) (turnVerts (flt 5))
    load (F := F64) win m.kind (exportMesh win m).bytes = .ok m ∧ m.indexnum = 6 ∧
    (load (F := W) win m.kind (exportMesh win m).bytes).toOption.map
      (fun r => r.floats.all fun w => decide (¬ SNaN w)) = some true := by
  decide +kernel

/-- The sample of the repository comes back unchanged too. -/
example : let _ := stillTurn
    (load (F := F64) win staticKind evilBox).toOption.map
      (fun m => exportMesh win (rotate m [flt 0, flt 0, flt 0]).1) = some ⟨evilBox, none⟩ := by
  decide +kernel

/-- A mesh with an infinite third component: it spoils the first. -/
example : ∃ (_ : Libm F64) (m : Mesh F64) (a : VAttr) (v : Vec3 F64), NoTurn (flt 0) ∧
    TiledVerts 8 m ∧ Float3Vectors 8 m ∧ m.vattrs.Pairwise (Apart m.vertformat) ∧ a ∈ m.vattrs ∧
    VectorAttr a ∧ StartsAt m.vertformat a 0 ∧ vec3At m.vertices (1 * 8 + 0) = some v ∧
    ¬ v.Finite ∧ v.x.isFin = true :=
  ⟨stillTurn, rotatable (flt 0) ((List.range 16).map fun n =>
      if n = 10 then F64.mk' false inf64 else flt n), ⟨0, 0, 2, 0⟩,
    ⟨flt 8, flt 9, F64.mk' false inf64⟩, still_noTurn _, rotatable_tiled _ _ rfl,
    rotatable_float3 _ _, rotatable_apart _ _, by decide +kernel, by decide,
    show StartsAt 4 _ _ by decide, by decide +kernel, fun h => absurd h.2.2 (by decide +kernel),
    by decide +kernel⟩

end Bf2
