import Verif.MergeOutcomeLemmas
import Verif.Props.Merge

/-!
# What `merge` does when it raises (C124)

`Fault` says which pair of materials cannot be merged and with which exception; `NumbersUpTo` which
numbers the materials have afterwards (`MergeOutcomeSpec`).  No hypothesis about the data of the
materials lying inside the arrays.
-/

namespace Bf2

variable {F : Type}

/-- **C124.** A merge of compatible meshes that raises stopped at the first pair of materials that cannot be
merged, with its exception.  The materials before it have their new numbers, the others are as they
were, and so are the arrays, the counts and everything else. -/
theorem C124_raises {vs : Nat} {m o m' : Mesh F} {ix : List Int} {e : Err} (compat : Compatible m o)
    (size : VertexSize m.vattrs vs) (many : m.index = .many ix) (h : merge m o = (m', .error e)) :
    m' = { m with geoms := m'.geoms } ∧ m'.geoms.map Geom.shape = m.geoms.map Geom.shape ∧
      ∃ k a b, m.mats[k]? = some a ∧ o.mats[k]? = some b ∧ Fault o a b e ∧
        (∀ (i : Nat) a b e, i < k → m.mats[i]? = some a → o.mats[i]? = some b → ¬ Fault o a b e) ∧
        NumbersUpTo k m.mats o.mats m'.mats := by
  have size' : VertexSize o.vattrs vs := compat.vattrs ▸ size
  obtain ⟨k, s', as', err, ht, hn, hb, hend⟩ :=
    mergeMats_outcome size size' many ⟨[], [], 0, 0, 0, 0⟩ m.mats o.mats compat.mats_length
  obtain ⟨hflat, hshape⟩ := trav2_geoms compat ⟨[], [], 0, 0, 0, 0⟩
  rw [ht] at hflat
  unfold merge at h
  rw [(canMerge_true m o).2 compat] at h
  simp only at h
  rcases hg : trav2 (mergeGeom m o) ⟨[], [], 0, 0, 0, 0⟩ m.geoms o.geoms with ⟨s1, gs, _ | e1⟩
  · rw [hg] at h
    simp only [mergeFinish, many] at h
    cases h
  · rw [hg] at h hflat hshape
    simp only at h hflat hshape
    cases h
    obtain ⟨rfl, h2'⟩ := Prod.mk.inj hflat
    obtain ⟨h2, rfl⟩ := Prod.mk.inj h2'
    rcases hend with ⟨h1, -⟩ | ⟨e', a, b, h1, ha, hb', hf⟩
    · cases h1
    · cases h1
      refine ⟨rfl, hshape, k, a, b, ha, hb', hf, hb, ?_⟩
      have : ({ m with geoms := gs } : Mesh F).mats = as' := h2
      rw [this]
      exact ⟨fun i a b hi h1 h2 => by simpa using hn.before i a b hi h1 h2, hn.after⟩

/-- **C124.** A merge of compatible meshes succeeds exactly if no pair of materials is at fault. -/
theorem C124_succeeds_iff {vs : Nat} {m o : Mesh F} {ix : List Int} (compat : Compatible m o)
    (size : VertexSize m.vattrs vs) (many : m.index = .many ix) :
    (merge m o).2 = .ok .done ↔
      ∀ (i : Nat) a b e, m.mats[i]? = some a → o.mats[i]? = some b → ¬ Fault o a b e := by
  have size' : VertexSize o.vattrs vs := compat.vattrs ▸ size
  obtain ⟨k, s', as', err, ht, hn, hb, hend⟩ :=
    mergeMats_outcome size size' many ⟨[], [], 0, 0, 0, 0⟩ m.mats o.mats compat.mats_length
  obtain ⟨hflat, -⟩ := trav2_geoms compat ⟨[], [], 0, 0, 0, 0⟩
  rw [ht] at hflat
  unfold merge
  rw [(canMerge_true m o).2 compat]
  simp only
  rcases hg : trav2 (mergeGeom m o) ⟨[], [], 0, 0, 0, 0⟩ m.geoms o.geoms with ⟨s1, gs, _ | e1⟩
  · rw [hg] at hflat
    simp only at hflat
    obtain ⟨rfl, h2⟩ := Prod.mk.inj hflat
    obtain ⟨-, rfl⟩ := Prod.mk.inj h2
    simp only [mergeFinish, many, true_iff]
    rcases hend with ⟨-, h1, -⟩ | ⟨e', a, b, h1, -⟩
    · intro i a b e ha hb'
      exact hb i a b e (by rw [h1]; exact (List.getElem?_eq_some_iff.1 ha).1) ha hb'
    · cases h1
  · rw [hg] at hflat
    simp only at hflat
    obtain ⟨rfl, h2⟩ := Prod.mk.inj hflat
    obtain ⟨-, rfl⟩ := Prod.mk.inj h2
    rcases hend with ⟨h1, -⟩ | ⟨e', a, b, h1, ha, hb', hf⟩
    · cases h1
    · simp only [reduceCtorEq, false_iff]
      exact fun hall => hall k a b e' ha hb' hf

/-- **C124.** After a merge every material has its new numbers, and the counts of the mesh are the sums of
the numbers of the materials, not of the old counts. -/
theorem C124_numbers {vs : Nat} {m o m' : Mesh F} {ix : List Int} (size : VertexSize m.vattrs vs)
    (many : m.index = .many ix) (h : merge m o = (m', .ok .done)) :
    NumbersUpTo m.mats.length m.mats o.mats m'.mats ∧
      m'.vertnum = (m.mats.map Mat.vnum).sum + (o.mats.map Mat.vnum).sum ∧
      m'.indexnum = (m.mats.map Mat.inum).sum + (o.mats.map Mat.inum).sum := by
  have compat : Compatible m o := by
    by_contra hc
    exact (C34_incompatible_untouched m o hc).2.1 (by rw [h])
  have size' : VertexSize o.vattrs vs := compat.vattrs ▸ size
  obtain ⟨k, s', as', err, ht, hn, hb, hend⟩ :=
    mergeMats_outcome size size' many ⟨[], [], 0, 0, 0, 0⟩ m.mats o.mats compat.mats_length
  obtain ⟨hflat, -⟩ := trav2_geoms compat ⟨[], [], 0, 0, 0, 0⟩
  rw [ht] at hflat
  unfold merge at h
  rw [(canMerge_true m o).2 compat] at h
  simp only at h
  rcases hg : trav2 (mergeGeom m o) ⟨[], [], 0, 0, 0, 0⟩ m.geoms o.geoms with ⟨s1, gs, _ | e1⟩
  · rw [hg] at h hflat
    simp only at hflat
    obtain ⟨rfl, h2'⟩ := Prod.mk.inj hflat
    obtain ⟨h2, rfl⟩ := Prod.mk.inj h2'
    simp only [mergeFinish, many] at h
    cases h
    rcases hend with ⟨-, rfl, h3, h4⟩ | ⟨e', a, b, h1, -⟩
    · refine ⟨?_, by simpa using h3, by simpa using h4⟩
      subst h2
      refine ⟨fun i a b hi h1 h2 => ?_, hn.after⟩
      have := hn.before i a b hi h1 h2
      simp only [zero_add] at this
      exact this
    · cases h1
  · rw [hg] at h
    cases h

/-- **C124.** A mesh with exactly one index never merges a compatible one: `TypeError`.  It stays as it was
if it has a material; without one it has lost its vertices. -/
theorem C124_one_index {vs : Nat} {m o : Mesh F} {v : Int} (compat : Compatible m o)
    (size : VertexSize m.vattrs vs) (one : m.index = .one v) :
    merge m o = (if m.mats = [] then { m with vertices := [] } else m, .error .typeError) := by
  have ht := mergeMats_one (o := o) size one ⟨[], [], 0, 0, 0, 0⟩ m.mats o.mats compat.mats_length
  obtain ⟨hflat, hshape⟩ := trav2_geoms compat ⟨[], [], 0, 0, 0, 0⟩
  rw [ht] at hflat
  unfold merge
  rw [(canMerge_true m o).2 compat]
  simp only
  rcases hg : trav2 (mergeGeom m o) ⟨[], [], 0, 0, 0, 0⟩ m.geoms o.geoms with ⟨s1, gs, err⟩
  rw [hg] at hflat hshape
  simp only at hflat hshape
  obtain ⟨rfl, h2'⟩ := Prod.mk.inj hflat
  obtain ⟨h2, rfl⟩ := Prod.mk.inj h2'
  obtain rfl : gs = m.geoms := geoms_ext hshape h2
  by_cases hm : m.mats = []
  · rw [if_pos hm, if_pos hm]
    simp only [mergeFinish, one]
  · rw [if_neg hm, if_neg hm]

/-! ## Examples -/

/-- Like `mergeB`, but the second material has an index past the end of the array. -/
def mergeD : Mesh Nat :=
  meshOf 0 [⟨0, 0, 0, 0⟩] 4 4 [[(2, 2, 1, 2)], [(0, 2, 2, 2)]] [1, 2, 3, 4] [0, 1, 0]

/-- Like `mergeA`, with one index, which is then no list. -/
def mergeE : Mesh Nat := { mergeA with index := .one 0 }

/-- No material. -/
def mergeF : Mesh Nat := { meshOf 0 [⟨0, 0, 0, 0⟩] 4 3 [[], []] [7, 8, 9] [0, 1, 0] with index := .one 0 }

example : Compatible mergeA mergeD ∧ VertexSize mergeA.vattrs 1 ∧ mergeA.index = .many [0, 1, 0] ∧
    merge mergeA mergeD = ((merge mergeA mergeD).1, .error .indexError) ∧
    (merge mergeA mergeD).1.mats.map (fun a => (a.vstart, a.vnum, a.istart, a.inum)) =
      [(0, 3, 0, 3), (1, 2, 1, 2)] ∧
    (∃ a b, mergeA.mats[1]? = some a ∧ mergeD.mats[1]? = some b ∧ Fault mergeD a b .indexError) :=
  ⟨⟨by repeat' constructor, rfl⟩, ⟨[1], rfl, rfl⟩, rfl, by decide +kernel, by decide +kernel,
    _, _, rfl, rfl, .missing (l := [0, 1, 0]) (i := 1) rfl (by decide)
      (fun j hj => ⟨2, by decide, 2, 0, by
        obtain rfl : j = 0 := by omega
        exact ⟨⟨by decide, by decide⟩, rfl, rfl⟩⟩)
      (by rintro k ⟨h1, h2 | h2⟩ <;> simp [matOf] at h1 h2 <;> omega)⟩

/-- The index array of the other mesh is a number: the first material is at fault, nothing changes. -/
example : Compatible mergeA mergeE ∧ Compatible mergeE mergeA ∧
    merge mergeA mergeE = (mergeA, .error .typeError) ∧
    merge mergeE mergeA = (mergeE, .error .typeError) ∧
    (∃ a b, mergeA.mats[0]? = some a ∧ mergeE.mats[0]? = some b ∧ Fault mergeE a b .typeError) :=
  ⟨⟨by repeat' constructor, rfl⟩, ⟨by repeat' constructor, rfl⟩, by decide +kernel, by decide +kernel,
    _, _, rfl, rfl, .oneIndex rfl (by decide)⟩

/-- Without a material the vertices are lost. -/
example : Compatible mergeF mergeF ∧ VertexSize mergeF.vattrs 1 ∧ mergeF.index = .one 0 ∧
    mergeF.mats = [] ∧ mergeF.vertices = [7, 8, 9] ∧
    merge mergeF mergeF = ({ mergeF with vertices := [] }, .error .typeError) :=
  ⟨⟨by repeat' constructor, rfl⟩, ⟨[1], rfl, rfl⟩, rfl, rfl, rfl, by decide +kernel⟩

/-- After a merge. -/
example : (merge mergeA mergeB).2 = .ok .done ∧
    (merge mergeA mergeB).1.mats.map (fun a => (a.vstart, a.vnum, a.istart, a.inum)) =
      [(0, 3, 0, 3), (3, 4, 3, 3)] ∧
    (merge mergeA mergeB).1.vertnum = 7 ∧ (merge mergeA mergeB).1.indexnum = 6 := by decide +kernel

end Bf2
