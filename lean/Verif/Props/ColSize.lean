import Verif.ColSizeLemmas
import Verif.Props.ColEdit
import Verif.Props.ColFormat
import Verif.ColSample

/-! # C167: how long the files of collision meshes are -/

namespace Bf2

/-- **C167.** The length of the file that a save writes. -/
theorem C167_saved {pl : Plat} {m : ColMesh F64 ColFace} {bs : Bytes} (saved : writeCol pl m = ⟨bs, none⟩) :
    bs.length = m.frameSize pl + m.dataSize pl m.version := by
  rw [((C61_save_writes_layout pl m bs).1 saved).2, ColMesh.layout_length]
  unfold ColMesh.stored
  rw [ColMesh.map_frameSize, ColMesh.map_dataSize]
  rfl

/-- **C167.** A file that loads is at least that long; this part of it is needed, and the rest ignored. -/
theorem C167_loaded {pl : Plat} {file : Bytes} {m : ColMesh F64 ColFace} (loaded : loadCol pl file = .ok m) :
    m.frameSize pl + m.dataSize pl m.version ≤ file.length ∧
      (∀ more, loadCol pl (file.take (m.frameSize pl + m.dataSize pl m.version) ++ more) = .ok m) ∧
      ∀ n, n < m.frameSize pl + m.dataSize pl m.version →
        loadCol (F := F64) pl (file.take n) = .error .structError := by
  obtain ⟨r, rest, h1, h2, rfl, rfl⟩ := (C59_loads_iff_layout pl file m).1 loaded
  have hl : r.obj.frameSize pl + r.obj.dataSize pl r.obj.version = (layout pl r.items).length := by
    rw [ColMesh.layout_length]
    unfold ColMesh.obj
    rw [ColMesh.map_frameSize, ColMesh.map_dataSize]
    rfl
  rw [hl]
  refine ⟨by simp, fun more => ?_, fun n hn => ?_⟩
  · rw [List.take_left']
    · exact (C59_loads_iff_layout pl _ _).2 ⟨r, more, h1, h2, rfl, rfl⟩
    · rfl
  · rw [List.take_append_of_le_length (by omega)]
    refine C60_truncation_rejected pl r h1 h2 _ ((layout pl r.items).drop n) (by rw [List.take_append_drop]) ?_
    intro h
    have := congrArg List.length h
    simp only [List.length_drop, List.length_nil] at this
    omega

/-- **C167.** Loading and saving makes no file longer. -/
theorem C167_resaved {pl : Plat} {file : Bytes} {m : ColMesh F64 ColFace} (loaded : loadCol pl file = .ok m) :
    ∃ bs, writeCol pl m = ⟨bs, none⟩ ∧ bs.length ≤ file.length := by
  obtain ⟨r, rest, h1, h2, rfl, rfl⟩ := (C59_loads_iff_layout pl file m).1 loaded
  have hs := (C62_load_save pl r rest h1 h2).2
  refine ⟨_, hs, ?_⟩
  rw [C167_saved hs]
  exact (C167_loaded loaded).1

section
variable {F φ : Type} [FArith F]

/-- **C167.** Translating keeps the length. -/
theorem C167_translate (pl : Plat) (off : Vec3 F) (m : ColMesh F φ) :
    (colTranslate off m).frameSize pl = m.frameSize pl ∧
      ∀ v, (colTranslate off m).dataSize pl v = m.dataSize pl v :=
  ⟨(colTranslate_size pl 0 off m).2, fun v => (colTranslate_size pl v off m).1⟩

/-- **C167.** Merging adds the contents of the lods of the other mesh and nothing else. -/
theorem C167_merge (pl : Plat) {h h' : Heap} {a b c : ColMesh F Nat} (merged : colMerge h a b = (h', c, none)) :
    c.version = a.version ∧ c.frameSize pl = a.frameSize pl ∧
      ∀ v, c.dataSize pl v = a.dataSize pl v + b.dataSize pl v :=
  ⟨(colMerge_size pl 0 merged).2.2, (colMerge_size pl 0 merged).2.1, fun v => (colMerge_size pl v merged).1⟩

end

/-- **C167.** The files of two meshes of one version and of their merge. -/
theorem C167_merged_file {pl : Plat} {h h' : Heap} {a b c : ColMesh F64 Nat} {x y z : Bytes}
    (merged : colMerge h a b = (h', c, none)) (version : a.version = b.version)
    (saved_a : writeCol pl (a.map id h) = ⟨x, none⟩) (saved_b : writeCol pl (b.map id h) = ⟨y, none⟩)
    (saved_c : writeCol pl (c.map id h') = ⟨z, none⟩) : z.length + b.frameSize pl = x.length + y.length := by
  obtain ⟨h1, h2, h3⟩ := C167_merge pl merged
  have ha := C167_saved saved_a
  have hb := C167_saved saved_b
  have hc := C167_saved saved_c
  rw [ColMesh.map_frameSize, ColMesh.map_dataSize] at ha hb hc
  have e1 : (a.map id h).version = b.version := version
  have e2 : (b.map id h).version = b.version := rfl
  have e3 : (c.map id h').version = b.version := h1.trans version
  rw [e1] at ha
  rw [e2] at hb
  rw [e3, h2, h3] at hc
  omega

/-- The sample: 1511 bytes, of which 12 + 8 for the tables and 3 * (49 + 4 * 6) are not contents. -/
example : (loadCol (F := BitVec 32) win evilBoxCol).toOption.map (fun m => (m.frameSize win, m.dataSize win m.version)) =
    some (239, 1272) ∧ evilBoxCol.length = 239 + 1272 := by
  decide +kernel

/-- A triangle merged with a triangle, and the three files. -/
example :
    let a := oneLod (oneFace 0 [colPt 0, colPt 1, colPt 2])
    let b := oneLod (oneFace 1 [colPt 5, colPt 6, colPt 7])
    let r := colMerge triHeap a b
    r.2.2 = none ∧ a.version = b.version ∧
    (writeCol win (a.map id triHeap)).err = none ∧ (writeCol win (b.map id triHeap)).err = none ∧
    (writeCol win (r.2.1.map id r.1)).err = none ∧
    (writeCol win (a.map id triHeap)).bytes.length = 175 ∧ b.frameSize win = 93 ∧
    (writeCol win (r.2.1.map id r.1)).bytes.length = 257 := by
  decide +kernel

end Bf2
