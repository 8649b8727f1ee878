import Verif.OldGenTestsLemmas
import Verif.Props.OldTransform
import Verif.Props.OldBox
import Verif.Props.OldHistory

/-!
# C160: when the tests of the vertex generator pass
-/

namespace Bf2

section
variable {F : Type}

/-- **C160.** `test_can_serialize_vertices` passes on a mesh whose attribute table describes its vertices
completely and in order, if no attribute is marked unused; NaNs do not matter, since a tuple compares equal to
one of the same float objects. -/
theorem C160_serialize {vs : Nat} {m : OldMesh F} (packed : Packed vs m)
    (used : ∀ a ∈ m.vattrs, a.flag ≠ 255) {eq : F → F → Bool} (refl : ∀ x, eq x x = true) :
    serializeTest eq m = .ok true := by
  obtain ⟨n, hn, hlen⟩ := packed.num
  unfold serializeTest
  rw [if_neg packed.table.format, hn, Int.toNat_natCast]
  have h : assertEach (assertVertex eq m) (List.range n) = .ok true := by
    rw [assertEach_true]
    intro i hi
    obtain ⟨h1, v, h2, -, h4⟩ := getVertex_at packed.table i (by
      rw [hlen]; exact Nat.mul_le_mul_right _ (List.mem_range.1 hi))
    unfold assertVertex
    rw [h2, h1]
    dsimp only
    rw [assertEach_true]
    intro a ha
    obtain ⟨k, h5, h6, h7⟩ := h4 a ha (used a ha)
    obtain ⟨ht, hu⟩ := packed.table.known a ha
    unfold assertVertexAttr
    rw [oldAttr_ok packed.table.format ht hu]
    dsimp only
    rw [h6, (oldFloats_declLen h5).1]
    dsimp only
    rw [thenAssert_true]
    refine ⟨by rw [h7]; simp, ?_⟩
    rw [(assertLists_same _).2 fun x _ => refl x]
  rw [h]
  simp

/-- **C160.** It fails on every such mesh with a vertex whose table has an entry of type UNUSED,
as the last entry of a table in a file is. -/
theorem C160_serialize_unused {vs : Nat} {m : OldMesh F} (packed : Packed vs m) (some_vertex : 0 < m.vertnum)
    {a : VAttr} (ha : a ∈ m.vattrs) (type : a.vartype = 17)
    (no_float4 : ∀ b ∈ m.vattrs, b.vartype ≠ 3) (eq : F → F → Bool) :
    serializeTest eq m = .ok false := by
  obtain ⟨n, hn, hlen⟩ := packed.num
  obtain ⟨k, rfl⟩ : ∃ k, n = k + 1 := ⟨n - 1, by omega⟩
  unfold serializeTest
  rw [if_neg packed.table.format, hn, Int.toNat_natCast, List.range_succ_eq_map]
  obtain ⟨h1, v, h2, h3, -⟩ := getVertex_at packed.table 0 (by
    rw [hlen]; exact Nat.mul_le_mul_right _ (by omega))
  rw [assertEach_first]
  unfold assertVertex
  rw [h2]
  dsimp only
  refine assertEach_false (fun b hb => ?_) ha ?_
  · obtain ⟨ht, hu⟩ := packed.table.known b hb
    obtain ⟨j, hj⟩ := oldDeclLen_known ht (no_float4 b hb)
    unfold assertVertexAttr
    rw [oldAttr_ok packed.table.format ht hu]
    dsimp only
    rcases v b.usage with _ | x
    · exact ⟨false, rfl⟩
    · dsimp only
      rw [hj]
      dsimp only
      unfold thenAssert
      split <;> exact ⟨_, rfl⟩
  · obtain ⟨ht, hu⟩ := packed.table.known a ha
    unfold assertVertexAttr
    rw [oldAttr_ok packed.table.format ht hu]
    dsimp only
    rcases hx : v a.usage with _ | x
    · rfl
    · dsimp only
      rw [type]
      have : x.length ≠ 0 := fun h => h3 _ _ hx (List.length_eq_zero_iff.1 h)
      simp [oldDeclLen, thenAssert, this]

end

/-- **C160.** `test_can_deserialize_materials_vertices` does not depend on the materials: it passes exactly if
the vertices are a tuple without a NaN. -/
theorem C160_all {vs o : Nat} {m : OldMesh F64} (packed : Packed vs m)
    (pos : Float3At m.vertformat m.vattrs 0 o) (bounds : HasBounds m)
    (nonneg : ∀ a ∈ m.mats, 0 ≤ a.vstart ∧ 0 ≤ a.vnum) (small : m.vertices.length ≤ 2 ^ 53) :
    ∃ b, deserializeTest m = .ok b ∧
      (b = true ↔ m.vertsList = false ∧ ∀ x ∈ m.vertices, x.isNaN = false) := by
  obtain ⟨n, hn, hlen⟩ := packed.num
  obtain ⟨vo, hvo, hh⟩ := getVertices_holds packed.table hn hlen
  obtain ⟨h1, -⟩ := updateVertices_eq packed.table hh (by rw [verts_length, ← hlen]; exact small)
  rw [verts_flatten hlen, verts_length, ← hn] at h1
  have hp' : Packed vs { m with vertsList := false } := ⟨packed.table, packed.count⟩
  obtain ⟨gs, h2, -⟩ := oldUpdateBoundaries_eq hp' pos bounds nonneg
  unfold deserializeTest
  rw [hvo]
  dsimp only
  rw [h1, h2]
  refine ⟨_, rfl, ?_⟩
  rw [sameVertices_true, ← numsEq_self, eq_comm]

/-- **C160.** `test_can_deserialize_materials_vertices_pavement` on a mesh in order passes exactly if no float
of the vertices is a NaN. -/
theorem C160_materials {vs : Nat} {m : OldMesh F64} (order : OldOrderly vs m) (pl : Plat)
    (range : OldInRange pl m) (tuple : m.vertsList = false) :
    ∃ b, deserializeFileTest pl m = .ok b ∧ (b = true ↔ ∀ x ∈ m.vertices, x.isNaN = false) := by
  obtain ⟨n, hn, hlen⟩ := order.packed.num
  obtain ⟨vo, hvo, hh⟩ := getVertices_holds order.packed.table hn hlen
  have hs := selected_holds hn order.tiled.exist hh
  have he : m.ids.map (vert vs m.vertices) = verts vs n m.vertices := by rw [order.tiled.ids hn]; rfl
  rw [he] at hs
  obtain ⟨h1, -⟩ := updateVertices_eq order.packed.table hs (by rw [verts_length, ← hlen]; exact order.small)
  rw [verts_flatten hlen, verts_length, ← hn] at h1
  obtain ⟨o, pos⟩ := order.pos
  have hp' : Packed vs { m with vertsList := false } := ⟨order.packed.table, order.packed.count⟩
  obtain ⟨gs, h2, h3⟩ := oldUpdateBoundaries_eq hp' pos order.bounds
    (fun a ha => ⟨(order.tiled.exist a ha).1, (order.tiled.exist a ha).2.1⟩)
  unfold deserializeFileTest
  rw [hvo]
  dsimp only
  rw [h1, h2]
  dsimp only
  have h4 := (order.grown (l := m.vertices) (b := false) rfl h3).wf.save_err.2 (range.grown h3)
  rw [h4]
  refine ⟨_, rfl, ?_⟩
  rw [sameVertices_true, ← numsEq_self]
  simp [tuple]

/-- **C160.** On a mesh whose materials are in another order, or leave out or share vertices, it passes only if
the vertices they name, one after the other, are as numbers the whole array. -/
theorem C160_materials_only_if {vs : Nat} {m : OldMesh F64} (packed : Packed vs m) (exist : VertsExist m)
    (small : m.ids.length * vs ≤ 2 ^ 53) (pl : Plat) (passes : deserializeFileTest pl m = .ok true) :
    NumsEq (m.ids.flatMap (vert vs m.vertices)) m.vertices ∧ (m.ids.length : Int) = m.vertnum := by
  obtain ⟨n, hn, hlen⟩ := packed.num
  obtain ⟨vo, hvo, hh⟩ := getVertices_holds packed.table hn hlen
  obtain ⟨h1, hl⟩ := updateVertices_eq packed.table (selected_holds hn exist hh) (by simpa using small)
  obtain ⟨gs, hgs⟩ := oldUpdateBoundaries_fst { m with
    vertices := (m.ids.map (vert vs m.vertices)).flatten, vertsList := false
    vertnum := (m.ids.map (vert vs m.vertices)).length }
  unfold deserializeFileTest at passes
  rw [hvo] at passes
  dsimp only at passes
  rw [h1] at passes
  generalize hu : oldUpdateBoundaries { m with
    vertices := (m.ids.map (vert vs m.vertices)).flatten, vertsList := false
    vertnum := (m.ids.map (vert vs m.vertices)).length } = u at passes hgs
  obtain ⟨m', _ | e⟩ := u
  · dsimp only at passes hgs
    split at passes
    · cases passes
    · injection passes with passes
      rw [sameVertices_true, hgs] at passes
      have he := passes.2
      rw [← List.flatMap_def] at he
      refine ⟨he, ?_⟩
      have h2 := he.length_eq
      rw [List.flatMap_def, hl, List.length_map] at h2
      have h3 : m.ids.length = n := Nat.eq_of_mul_eq_mul_right packed.table.pos (h2.trans hlen)
      rw [hn, h3]
  · cases passes

/-- **C160.** On `Box()`, on which the project runs them, the first two tests pass. -/
theorem C160_box : serializeTest F64.feq mockBox = .ok true ∧ deserializeTest mockBox = .ok true := by
  have hn : ∀ x ∈ mockBox.vertices, x.isNaN = false := by decide +kernel
  refine ⟨by decide +kernel, ?_⟩
  obtain ⟨o, pos⟩ := C105_box_order.pos
  obtain ⟨b, h1, h2⟩ := C160_all C105_box_order.packed pos C105_box_order.bounds
    (fun a ha => ⟨(C105_box_order.tiled.exist a ha).1, (C105_box_order.tiled.exist a ha).2.1⟩)
    C105_box_order.small
  rw [h1, h2.2 ⟨rfl, hn⟩]

/-! ## Cases -/

/-- A table whose last entry is unused: the first test fails, the second passes. -/
example : Packed 4 (oldMovable (flt 0) upto12) ∧ (0 : Int) < (oldMovable (flt 0) upto12).vertnum ∧
    (⟨255, 0, 17, 0⟩ : VAttr) ∈ (oldMovable (flt 0) upto12).vattrs ∧
    (∀ b ∈ (oldMovable (flt 0) upto12).vattrs, b.vartype ≠ 3) ∧
    serializeTest F64.feq (oldMovable (flt 0) upto12) = .ok false ∧
    deserializeTest (oldMovable (flt 0) upto12) = .ok true ∧
    deserializeTest (oldMovable (flt 0) (F64.defaultNaN :: upto12.tail)) = .ok false :=
  ⟨oldMovable_packed _ _ rfl, by decide, by decide, by decide, by decide +kernel, by decide +kernel,
    by decide +kernel⟩

/-- Every attribute in use. -/
example : Packed 12 mockBox ∧ (∀ a ∈ mockBox.vattrs, a.flag ≠ 255) :=
  ⟨C105_box_order.packed, by decide⟩

/-- A mesh in order, without a NaN and with one. -/
example : OldOrderly 12 staticBox ∧ OldInRange win staticBox ∧ staticBox.vertsList = false ∧
    deserializeFileTest win staticBox = .ok true ∧
    deserializeFileTest win { staticBox with vertices := F64.defaultNaN :: staticBox.vertices.tail } =
      .ok false :=
  ⟨staticBox_orderly, boxOf_range _ _, rfl, by decide +kernel, by decide +kernel⟩

/-- The geoms exchanged: the vertices are written back in another order, which only the third test sees. -/
example : Packed 4 (orderGeomsBy joinA.old [1, 0]).1 ∧ VertsExist (orderGeomsBy joinA.old [1, 0]).1 ∧
    deserializeTest (orderGeomsBy joinA.old [1, 0]).1 = .ok true ∧
    deserializeFileTest win (orderGeomsBy joinA.old [1, 0]).1 = .ok false :=
  ⟨⟨posTable, by decide +kernel⟩, by unfold VertsExist; decide +kernel, by decide +kernel, by decide +kernel⟩

end Bf2
