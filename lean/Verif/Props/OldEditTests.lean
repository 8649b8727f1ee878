import Verif.OldEditTestsLemmas
import Verif.Props.OldTransform
import Verif.Props.OldFailed

/-!
# C161: when the skipped tests of the deprecated editing methods would pass
-/

namespace Bf2

/-- **C161.** `test_can_edit_geoms_order` on a skinned mesh whose counts are right, whose numbers fit their
fields and whose materials name vertices and indices that exist: it passes exactly if no bone has a matrix with
a NaN.  NaNs in the vertices do not matter. -/
theorem C161_order {vs : Nat} {m : OldMesh F64} (skinned : m.kind.isSkinned = true) (counts : OldWF m) (pl : Plat)
    (range : OldInRange pl m) (packed : Packed vs m) (exist : VertsExist m) (indices : IndexExist m)
    (small : m.vertices.length ≤ 2 ^ 53) :
    ∃ b, editOrderTest pl m = .ok b ∧
      (b = true ↔ ∀ g ∈ m.geoms, ∀ l ∈ g.lods, ∀ r ∈ l.rigs, ∀ b ∈ r.bones, ∀ x ∈ b.matrix.floats,
        x.isNaN = false) := by
  unfold editOrderTest
  rw [if_neg (by simp [skinned]), reversed_geoms counts.geoms]
  dsimp only
  have hw : OldWF { m with geoms := m.geoms.reverse } :=
    ⟨by simpa using counts.geoms, fun g hg => counts.lods g (by simpa using hg),
      fun g hg => counts.lod g (by simpa using hg), counts.vattrs, counts.vertformat, counts.vertices,
      counts.not_one, counts.index, counts.u2⟩
  have hr : OldInRange pl { m with geoms := m.geoms.reverse } :=
    { range with
      lodnum := fun g hg => range.lodnum g (by simpa using hg)
      lods := fun g hg => range.lods g (by simpa using hg) }
  rw [hw.save_err.2 hr]
  dsimp only
  have hmat : ∀ a ∈ m.mats, 0 ≤ a.istart ∧ 0 ≤ a.inum ∧
      0 ≤ intDivMul m.vertstride m.vertformat a.vstart ∧ 0 ≤ intDivMul m.vertstride m.vertformat a.vnum := by
    intro a ha
    obtain ⟨h1, h2, -⟩ := indices a ha
    obtain ⟨h3, h4, h5⟩ := exist a ha
    obtain ⟨n, hn, hlen⟩ := packed.num
    have hle : (vs : Int) * n ≤ 2 ^ 53 := by
      rw [hlen, Nat.mul_comm] at small
      exact_mod_cast small
    have key : ∀ k : Int, 0 ≤ k → k ≤ n → 0 ≤ intDivMul m.vertstride m.vertformat k := by
      intro k h6 h7
      have h8 : (vs : Int) * k ≤ vs * n := Int.mul_le_mul_of_nonneg_left h7 (by omega)
      have h9 : 0 ≤ (vs : Int) * k := Int.mul_nonneg (by omega) h6
      rw [intDivMul_exact packed.table.format packed.table.stride (by
        rw [abs_of_nonneg h9]; omega)]
      exact h9
    exact ⟨h1, h2, key _ h3 (by omega), key _ h4 (by omega)⟩
  refine (Concludes.each (P := fun p : Nat × OldGeom F64 => ∀ l ∈ p.2.lods, ∀ r ∈ l.rigs, ∀ b ∈ r.bones,
    ∀ x ∈ b.matrix.floats, x.isNaN = false) fun p hp => ?_).iff ?_
  · have hp := numbered_mem.1 hp
    have hlt := (List.getElem?_eq_some_iff.1 hp).1
    have hlt' : p.1 < m.geoms.length := by simpa using hlt
    rw [List.getElem?_reverse hlt'] at hp
    have hg : pyGet m.geoms (((m.geoms.reverse.length : Nat) : Int) - p.1 - 1) = some p.2 := by
      rw [pyGet_names (j := m.geoms.length - 1 - p.1) ⟨by omega, .inl (by
        rw [List.length_reverse]; omega)⟩]
      exact hp
    rw [hg]
    dsimp only
    refine .thenTrue (by simp) (.thenTrue (by simp) (.against fun l hl => ?_))
    refine .thenTrue (by simp) (.thenTrue (by simp) ?_)
    refine (Concludes.andThen (.against fun r _ => .rig mat4Eq_self r) (.against (P := fun _ => True) fun a ha => ?_)).iff
      (by simp)
    have hm : a ∈ m.mats := List.mem_flatMap.2 ⟨p.2, List.mem_of_getElem? hp, List.mem_flatMap.2 ⟨l, hl, ha⟩⟩
    obtain ⟨h1, h2, h3, h4⟩ := hmat a hm
    refine .thenTrue (by simp) (.thenTrue (by simp) (.thenTrue (by simp) (.thenTrue (by simp) ?_)))
    rw [if_neg counts.vertformat]
    exact (Concludes.andThen (.floats h3 h4) (.index h1 h2)).iff (by simp)
  · constructor
    · intro h g hg
      obtain ⟨i, hi⟩ := List.mem_iff_getElem?.1 (List.mem_reverse.2 hg)
      exact h (i, g) (numbered_mem.2 hi)
    · intro h p hp
      exact h _ (List.mem_reverse.1 (List.mem_of_getElem? (numbered_mem.1 hp)))

/-- **C161.** `test_can_copy_geom_by_ref` on a skinned mesh whose counts are right and whose numbers fit their
fields: with a geom it passes, whatever the floats are, unless one geom more is one too many for the field of
their number; without one it is an `IndexError`. -/
theorem C161_copy {m : OldMesh F64} (skinned : m.kind.isSkinned = true) (counts : OldWF m) (pl : Plat)
    (range : OldInRange pl m) :
    copyGeomTest pl m =
      if m.geoms = [] then .error .indexError
      else if m.geomnum + 1 ≤ (if pl.long8 then 9223372036854775807 else 2147483647) then .ok true
      else .error .structError := by
  unfold copyGeomTest
  rw [if_neg (by simp [skinned])]
  rcases hg : m.geoms with _ | ⟨g, gs⟩
  · rw [C95_bad_id m (by rw [hg]; rintro j ⟨h, -⟩; simp at h)]
    rfl
  rw [C95_copy_geom m (idCopy := 0) (idNew := 1) (j := 0) (p := 1) (g := g) ⟨by simp [hg], .inl rfl⟩ (by simp [hg])
    (.inl ⟨by decide, by simp [hg], rfl⟩)]
  dsimp only
  rw [if_neg (by simp)]
  have hins : insertedAt m.geoms 1 g = g :: g :: gs := by simp [insertedAt, hg]
  rw [hins]
  have hn : 0 ≤ m.geomnum := by
    have := counts.geoms
    rw [hg] at this
    simp at this
    omega
  have hmem : ∀ h ∈ g :: g :: gs, h ∈ m.geoms := by
    intro h hh
    rw [hg]
    simpa using hh
  have hw : OldWF { m with geomnum := m.geomnum + 1, geoms := g :: g :: gs } :=
    ⟨by
      have := counts.geoms
      rw [hg] at this
      simp at this ⊢
      omega, fun h hh => counts.lods h (hmem h hh),
      fun h hh => counts.lod h (hmem h hh), counts.vattrs, counts.vertformat, counts.vertices,
      counts.not_one, counts.index, counts.u2⟩
  have hlong : IsLong pl (m.geomnum + 1) ↔
      m.geomnum + 1 ≤ (if pl.long8 then 9223372036854775807 else 2147483647) := by
    unfold IsLong
    split <;> constructor <;> intro h <;> omega
  by_cases hl : IsLong pl (m.geomnum + 1)
  · have hr : OldInRange pl { m with geomnum := m.geomnum + 1, geoms := g :: g :: gs } :=
      { range with
        geomnum := hl
        lodnum := fun h hh => range.lodnum h (hmem h hh)
        lods := fun h hh => range.lods h (hmem h hh) }
    rw [if_pos (hlong.1 hl), hw.save_err.2 hr]
    dsimp only
    have hrig : ∀ r : Rig F64, Concludes (assertRig (fun a b => decide (a = b)) r r) True := fun r =>
      (Concludes.rig (P := fun _ => True) (by simp) r).iff (by simp)
    have ht : Concludes (assertAgainst assertCopiedLod g.lods g.lods) (∀ l ∈ g.lods, True) := by
      refine .against fun l _ => .thenTrue (by simp) ?_
      refine (Concludes.andThen (P := ∀ r ∈ l.rigs, True) (Q := ∀ a ∈ l.materials, True)
        (.against fun r _ => hrig r) (.against fun a _ => ?_)).iff (by simp)
      exact .thenTrue (by simp) (.thenTrue (by simp) (.thenTrue (by simp) (.last (by simp))))
    obtain ⟨b, h1, h2⟩ := ht
    simp only [implies_true, iff_true] at h2
    simp [thenAssert, h1, h2]
  · rw [if_neg (fun h => hl (hlong.2 h)), (C152_raises_iff pl hw).2 (fun h => hl h.geomnum)]

/-- **C161.** `test_can_delete_geom` ends with an exception on every skinned mesh that was loaded, before it
asserts anything: the arrays are tuples.  It is a `TypeError` if geom 1 has a first lod with a first material,
and otherwise an `IndexError`. -/
theorem C161_delete (m : Mesh F64) (pl : Plat) (skinned : m.kind.isSkinned = true) (format : m.vertformat ≠ 0)
    (asserts : OldMesh F64 → Except Err Bool) :
    ((∃ g a, m.old.geoms[1]? = some g ∧ g.First a) → deleteGeomTest pl asserts m.old = .error .typeError) ∧
    ((¬ ∃ g a, m.old.geoms[1]? = some g ∧ g.First a) →
      deleteGeomTest pl asserts m.old = .error .indexError) := by
  unfold deleteGeomTest
  rw [if_neg (by simp [Mesh.old, skinned])]
  constructor
  · rintro ⟨g, a, hg, l, ls, as, hl, ha⟩
    rw [hg]
    have hd : deleteGeomId m.old 1 = (m.old, some .typeError) := by
      unfold deleteGeomId
      have h1 : pyGet m.old.geoms 1 = some g := by
        rw [pyGet_names (show Names m.old.geoms.length 1 1 from ⟨(List.getElem?_eq_some_iff.1 hg).1, .inl rfl⟩)]
        exact hg
      have h2 : g.mats ≠ [] := by simp [OldGeom.mats, hl, ha]
      have h3 : m.old.vertformat ≠ 0 := format
      have h4 : (!m.old.vertsList) = true := rfl
      simp only [h1, h2, if_false, h3, h4, if_true, hl, List.head?_cons, Option.bind_some, ha]
    rw [hd]
    simp [hl, ha]
  · intro none_
    rcases hg : m.old.geoms[1]? with _ | g
    · rfl
    dsimp only
    rcases hl : g.lods with _ | ⟨l, ls⟩
    · rfl
    rcases ha : l.materials with _ | ⟨a, as⟩
    · simp [ha]
    · exact absurd ⟨g, a, hg, l, ls, as, hl, ha⟩ none_

/-- **C161.** On a mesh of another kind the first test is a `RuntimeError` and the other two fail. -/
theorem C161_other_kinds (m : OldMesh F64) (pl : Plat) (other : m.kind.isSkinned = false)
    (asserts : OldMesh F64 → Except Err Bool) :
    copyGeomTest pl m = .error .runtimeError ∧ deleteGeomTest pl asserts m = .ok false ∧
    editOrderTest pl m = .ok false := by
  simp [copyGeomTest, deleteGeomTest, editOrderTest, other]

/-! ## Cases -/

/-- A lod with one bone, in whose matrix is the float `x`. -/
def boneLod (x : F64) (r : Int × Int × Int × Int) : Lod F64 where
  min := ⟨flt 0, flt 0, flt 0⟩
  max := ⟨flt 0, flt 0, flt 0⟩
  pivot := none
  rignum := 1
  rigs := [⟨1, [⟨7, ⟨⟨x, flt 0, flt 0, flt 0⟩, ⟨flt 0, flt 1, flt 0, flt 0⟩, ⟨flt 0, flt 0, flt 1, flt 0⟩,
    ⟨flt 0, flt 0, flt 0, flt 1⟩⟩⟩]⟩]
  nodenum := 0
  nodes := []
  matnum := 1
  materials := [{ (matOf r : Mat F64) with alphamode := none }]

/-- A skinned mesh of two geoms; `x` is in the matrices, `y` in the vertices. -/
def boneMesh (x y : F64) : Mesh F64 :=
  { joinPlain with
    kind := skinnedKind, vertices := y :: upto12.tail
    geoms := [⟨1, [boneLod x (0, 2, 0, 3)]⟩, ⟨1, [boneLod x (2, 1, 3, 3)]⟩] }

def boneFile (x y : F64) : Bytes := (exportMesh win (boneMesh x y)).bytes

/-- The file loads; so the counts are right and the numbers fit. -/
theorem boneFile_loads : load win skinnedKind (boneFile (flt 1) (flt 2)) = .ok (boneMesh (flt 1) (flt 2)) := by
  decide +kernel

example : OldWF (boneMesh (flt 1) (flt 2)).old ∧ OldInRange win (boneMesh (flt 1) (flt 2)).old ∧
    Packed 4 (boneMesh (flt 1) (flt 2)).old ∧ VertsExist (boneMesh (flt 1) (flt 2)).old ∧
    IndexExist (boneMesh (flt 1) (flt 2)).old :=
  ⟨(C06_loaded_wf _ _ _ _ boneFile_loads).1.old, (C07_integers_in_range _ _ _ _ boneFile_loads).old,
    ⟨posTable, rfl⟩, by unfold VertsExist; decide +kernel, by unfold IndexExist; decide +kernel⟩

/-- A NaN in the vertices does not matter to the tests, one in the bones does to the second. -/
example : [copyGeomTest win (boneMesh (flt 1) F64.defaultNaN).old,
      editOrderTest win (boneMesh (flt 1) F64.defaultNaN).old,
      copyGeomTest win (boneMesh F64.defaultNaN (flt 2)).old,
      editOrderTest win (boneMesh F64.defaultNaN (flt 2)).old,
      deleteGeomTest win (fun _ => .ok true) (boneMesh (flt 1) (flt 2)).old] =
    [.ok true, .ok true, .ok true, .ok false, .error .typeError] := by
  decide +kernel

/-- No geoms, and one geom. -/
example : [copyGeomTest win { (boneMesh (flt 1) (flt 2)).old with geomnum := 0, geoms := [] },
      deleteGeomTest win (fun _ => .ok true)
        { (boneMesh (flt 1) (flt 2)) with geomnum := 1, geoms := [⟨1, [boneLod (flt 1) (0, 2, 0, 3)]⟩] }.old] =
    [.error .indexError, .error .indexError] := by
  decide +kernel

end Bf2
