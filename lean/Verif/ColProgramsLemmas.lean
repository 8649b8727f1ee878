import Verif.ColPrograms
import Verif.ColProgramsSpec
import Verif.ColEditLemmas
import Verif.Exact

/-!
# Lemmas about `mesh_merge.py`
-/

namespace Bf2

section
variable {F φ ψ : Type}

theorem map_lodAt (g : φ → ψ) (m : ColMesh F φ) (i j k : Nat) :
    (m.map id g).lodAt i j k = (m.lodAt i j k).map (ColLod.map id g) := by
  unfold ColMesh.lodAt ColMesh.map
  simp only [List.getElem?_map]
  rcases m.geoms[i]? with _ | x
  · rfl
  · simp only [Option.map_some, Option.bind_some, ColGeom.map, List.getElem?_map]
    rcases x.subgeoms[j]? with _ | s
    · rfl
    · simp only [Option.map_some, Option.bind_some, ColSub.map, List.getElem?_map]

theorem map_skeleton (g : φ → ψ) (m : ColMesh F φ) : (m.map id g).skeleton = m.skeleton := by
  simp [ColMesh.skeleton, ColMesh.map, ColGeom.map, ColSub.map, Function.comp_def]

theorem matches_of_skeleton {a b : ColMesh F φ} (h : a.skeleton = b.skeleton) : Matches a b := by
  have h1 : (a.geoms.map fun g => (g.subgeomnum, g.subgeoms.map fun s => (s.lodnum, s.lods.length))) =
      b.geoms.map fun g => (g.subgeomnum, g.subgeoms.map fun s => (s.lodnum, s.lods.length)) :=
    congrArg (fun s => s.2.2.2) h
  refine ⟨by simpa using (congrArg List.length h1).ge, fun i ga gb ha hb => ?_⟩
  have h2 := congrArg (fun l => l[i]?) h1
  simp only [List.getElem?_map, ha, hb, Option.map_some, Option.some.injEq, Prod.mk.injEq] at h2
  refine ⟨by simpa using (congrArg List.length h2.2).ge, fun j sa sb hsa hsb => ?_⟩
  have h3 := congrArg (fun l => l[j]?) h2.2
  simp only [List.getElem?_map, hsa, hsb, Option.map_some, Option.some.injEq, Prod.mk.injEq] at h3
  exact h3.2.ge

variable [FArith F]

theorem colTranslate_skeleton (off : Vec3 F) (m : ColMesh F φ) :
    (colTranslate off m).skeleton = m.skeleton := by
  simp [ColMesh.skeleton, colTranslate, Function.comp_def]

theorem colTranslate_allFaces (off : Vec3 F) (m : ColMesh F φ) :
    (colTranslate off m).allFaces = m.allFaces := by
  simp [ColMesh.allFaces, ColMesh.lods, colTranslate, List.flatMap_map, List.flatMap_assoc]

variable [FDiv F]

/-- The program when the merged mesh has a first lod. -/
theorem joinDividers_some (diff : Vec3 F) (h : Heap) (a b : ColMesh F Nat) {h' : Heap}
    {c : ColMesh F Nat} (hm : colMerge h a (colTranslate diff b) = (h', c, none)) {l : ColLod F Nat}
    (hl : c.lodAt 0 0 0 = some l) :
    joinDividers diff h a b = (h', colTranslate (centerOffset l).neg c, none) := by
  unfold ColMesh.lodAt at hl
  obtain ⟨g, hg, hl⟩ := Option.bind_eq_some_iff.1 hl
  obtain ⟨s, hs, hl⟩ := Option.bind_eq_some_iff.1 hl
  unfold joinDividers
  rw [hm]
  dsimp only
  rw [hg]
  dsimp only
  rw [hs]
  dsimp only
  rw [hl]

/-- The program when the merged mesh has no first lod. -/
theorem joinDividers_none (diff : Vec3 F) (h : Heap) (a b : ColMesh F Nat) {h' : Heap}
    {c : ColMesh F Nat} (hm : colMerge h a (colTranslate diff b) = (h', c, none))
    (hl : c.lodAt 0 0 0 = none) :
    joinDividers diff h a b = (h', c, some .indexError) := by
  unfold ColMesh.lodAt at hl
  unfold joinDividers
  rw [hm]
  dsimp only
  rcases hg : c.geoms[0]? with _ | g
  · rfl
  · rw [hg] at hl
    dsimp only [Option.bind_some] at hl ⊢
    rcases hs : g.subgeoms[0]? with _ | s
    · rfl
    · rw [hs] at hl
      dsimp only [Option.bind_some] at hl ⊢
      rw [hl]

section
variable {diff : Vec3 F} {h : Heap} {a b : ColMesh F Nat} {m : ColMesh F ColFace}

omit [FArith F] [FDiv F] in
theorem TwoCopies.skeletons (t : TwoCopies h a b m) :
    a.skeleton = m.skeleton ∧ b.skeleton = m.skeleton := by
  constructor
  · rw [← t.first]; exact (map_skeleton h a).symm
  · rw [← t.second]; exact (map_skeleton h b).symm

omit [FArith F] [FDiv F] in
theorem TwoCopies.lods (t : TwoCopies h a b m) {i j k : Nat} {x : ColLod F ColFace}
    (hx : m.lodAt i j k = some x) : ∃ xa xb, a.lodAt i j k = some xa ∧ xa.map id h = x ∧
      b.lodAt i j k = some xb ∧ xb.map id h = x := by
  have h1 := hx
  have h2 := hx
  rw [← t.first, ColMesh.view, map_lodAt] at h1
  rw [← t.second, ColMesh.view, map_lodAt] at h2
  obtain ⟨xa, e1, e2⟩ := Option.map_eq_some_iff.1 h1
  obtain ⟨xb, e3, e4⟩ := Option.map_eq_some_iff.1 h2
  exact ⟨xa, xb, e1, e2, e3, e4⟩

omit [FDiv F] in
theorem TwoCopies.merges (t : TwoCopies h a b m) (diff : Vec3 F) :
    ∃ h' c, colMerge h a (colTranslate diff b) = (h', c, none) := by
  refine ⟨_, _, Prod.ext rfl (Prod.ext rfl ?_)⟩
  refine ((colMerge_err h a _).1).2 (matches_of_skeleton ?_)
  rw [colTranslate_skeleton, t.skeletons.1, t.skeletons.2]

end

end

noncomputable section

open Classical in
/-- Exact division. -/
instance : FDiv ℝ := ⟨fun x => -x, fun x y => if y = 0 then none else some (x / y)⟩

end

end Bf2
