import Verif.ColSizeSpec
import Verif.SizeLemmas
import Verif.ColEditLemmas

/-! # The length of a collision mesh file -/

namespace Bf2

local notation "W" => BitVec 32

variable {F G φ ψ : Type} (pl : Plat)

theorem FileFace.layout_length (f : FileFace) : (layout pl f.items).length = 8 := by
  simp only [FileFace.items, layout_cons, layout_nil, Item.bytes, List.length_append, intBytes_length, List.length_nil]

theorem ColY.layout_length (y : ColY W) : (layout pl y.items).length = 8 + 2 * pl.cLong := by
  simp only [ColY.items, layout_cons, layout_nil, Item.bytes, List.length_append, intBytes_length, List.length_nil,
    longBytes_length]
  omega

theorem layout_sshorts (l : List Int) : (layout pl (l.map .sshort)).length = 2 * l.length :=
  layout_const pl l _ 2 fun _ => intBytes_length _ _ _

theorem layout_longs (l : List Int) : (layout pl (l.map .long)).length = pl.cLong * l.length :=
  layout_const pl l _ _ fun _ => longBytes_length _ _

theorem ColLod.layout_length (version : Int) (l : ColLod W FileFace) :
    (layout pl (l.items version)).length = lodFrameSize pl.cLong version + l.dataSize pl.cLong version := by
  have h1 : (layout pl (if 9 ≤ version then [Item.long l.coltype] else [])).length =
      pl.cLong * if 9 ≤ version then 1 else 0 := by
    split_ifs
    · simp only [layout_cons, layout_nil, Item.bytes, longBytes_length, List.length_append, List.length_nil]
      omega
    · rfl
  have h2 : (layout pl (if 10 ≤ version then Item.long l.anum :: l.adata.map .long else [])).length =
      pl.cLong * (if 10 ≤ version then 1 else 0) + if 10 ≤ version then pl.cLong * l.adata.length else 0 := by
    split_ifs
    · simp only [layout_cons, Item.bytes, longBytes_length, List.length_append, layout_longs]
      omega
    · rfl
  simp only [ColLod.items, layout_append, List.length_append, h1, h2]
  simp only [layout_cons, layout_nil, layout_append, List.length_append, Item.bytes, longBytes_length,
    intBytes_length, Vec3.layout_length, layout_flatMap, FileFace.layout_length, ColY.layout_length,
    layout_sshorts, List.length_nil, lodFrameSize, ColLod.dataSize]
  rw [sum_const l.faces _ 8 fun _ _ => rfl, sum_const l.vertices _ 12 fun _ _ => rfl,
    sum_const l.ydata _ (8 + 2 * pl.cLong) fun _ _ => rfl]
  rw [Nat.mul_add pl.cLong, Nat.mul_add pl.cLong]
  omega

theorem ColMesh.layout_length (m : ColFile) :
    (layout pl m.items).length = m.frameSize pl + m.dataSize pl m.version := by
  obtain ⟨u1, version, geomnum, geoms⟩ := m
  simp only [ColMesh.items, layout_append, List.length_append, layout_flatMap, ColMesh.frameSize,
    ColMesh.dataSize, ColMesh.lods]
  simp only [layout_cons, layout_nil, Item.bytes, longBytes_length, List.length_append, List.length_nil]
  induction geoms with
  | nil => simp; omega
  | cons g gs ih =>
    have hl : ∀ ls : List (ColLod W FileFace), (ls.map fun l => (layout pl (l.items version)).length).sum =
        lodFrameSize pl.cLong version * ls.length + (ls.map (ColLod.dataSize pl.cLong version)).sum := by
      intro ls
      induction ls with
      | nil => rfl
      | cons l ls ih =>
        rw [List.map_cons, List.sum_cons, ih, ColLod.layout_length]
        simp only [List.map_cons, List.sum_cons, List.length_cons, Nat.mul_succ]
        omega
    have hs : ∀ ss : List (ColSub W FileFace), (ss.map fun s => (layout pl (s.items version)).length).sum =
        pl.cLong * ss.length + lodFrameSize pl.cLong version * (ss.flatMap fun s => s.lods).length +
          ((ss.flatMap fun s => s.lods).map (ColLod.dataSize pl.cLong version)).sum := by
      intro ss
      induction ss with
      | nil => rfl
      | cons s ss ih =>
        rw [List.map_cons, List.sum_cons, ih]
        simp only [ColSub.items, layout_cons, layout_flatMap, List.length_append, Item.bytes, longBytes_length, hl,
          List.length_cons, Nat.mul_succ, List.flatMap_cons, List.map_append,
          List.sum_append, Nat.mul_add]
        omega
    simp only [List.map_cons, List.sum_cons, ColGeom.items, layout_cons, layout_flatMap, List.length_append,
      Item.bytes, longBytes_length, hs, List.length_cons, List.flatMap_cons, List.map_append, List.sum_append] at ih ⊢
    generalize pl.cLong = n at *
    generalize lodFrameSize n version = f at *
    simp only [Nat.mul_add, Nat.mul_succ] at ih ⊢
    omega

/-! ## Other floats, other faces -/

theorem ColLod.map_dataSize (f : F → G) (g : φ → ψ) (n : Nat) (v : Int) (l : ColLod F φ) :
    (l.map f g).dataSize n v = l.dataSize n v := by
  simp only [ColLod.dataSize, ColLod.map, List.length_map]

theorem ColMesh.map_lods (f : F → G) (g : φ → ψ) (m : ColMesh F φ) :
    (m.map f g).lods = m.lods.map (ColLod.map f g) := by
  simp only [ColMesh.lods, ColMesh.map, ColGeom.map, ColSub.map, List.flatMap_map, List.map_flatMap]

theorem ColMesh.map_dataSize (f : F → G) (g : φ → ψ) (v : Int) (m : ColMesh F φ) :
    (m.map f g).dataSize pl v = m.dataSize pl v := by
  simp only [ColMesh.dataSize, ColMesh.map_lods, List.map_map]
  congr 1
  exact List.map_congr_left fun l _ => ColLod.map_dataSize f g _ v l

theorem ColMesh.map_frameSize (f : F → G) (g : φ → ψ) (m : ColMesh F φ) :
    (m.map f g).frameSize pl = m.frameSize pl := by
  simp only [ColMesh.frameSize, ColMesh.map_lods, List.length_map]
  simp only [ColMesh.map, ColGeom.map, List.map_map, List.length_map, Function.comp_def]

/-! ## Merging -/

theorem mergeFaces_length (n : Int) (h : Heap) (a b : List Nat) :
    (mergeFaces n h a b).2.length = a.length + b.length := by
  induction b generalizing h a with
  | nil => rfl
  | cons x b ih =>
    unfold mergeFaces
    rw [ih]
    simp only [List.length_append, List.length_cons, List.length_nil]
    omega

theorem mergeAll_sum {α : Type} {f : Heap → α → α → Heap × α × Option Err} {w k : α → Nat}
    (hf : ∀ h a b h' c, f h a b = (h', c, none) → w c = w a + w b ∧ k c = k a) {h h' : Heap} {as bs cs : List α}
    (hm : mergeAll f h as bs = (h', cs, none)) :
    (cs.map w).sum = (as.map w).sum + (bs.map w).sum ∧ cs.map k = as.map k := by
  induction bs generalizing h as cs with
  | nil =>
    have : mergeAll f h as [] = (h, as, none) := by cases as <;> rfl
    rw [this] at hm
    cases hm
    simp
  | cons b bs ih =>
    rcases as with _ | ⟨a, as⟩
    · simp [mergeAll] at hm
    · unfold mergeAll at hm
      rcases hx : f h a b with ⟨h1, c, _ | e⟩
      · rw [hx] at hm
        rcases hr : mergeAll f h1 as bs with ⟨h2, cs', e⟩
        simp only [hr] at hm
        cases hm
        obtain ⟨h3, h4⟩ := ih hr
        obtain ⟨h5, h6⟩ := hf _ _ _ _ _ hx
        simp only [List.map_cons, List.sum_cons, h3, h4, h5, h6, and_true]
        omega
      · rw [hx] at hm
        cases hm

/-- The contents of the lods of a part of a geom, and of a geom. -/
def ColSub.dataSize (n : Nat) (v : Int) (s : ColSub F φ) : Nat := (s.lods.map (ColLod.dataSize n v)).sum

def ColGeom.dataSize (n : Nat) (v : Int) (g : ColGeom F φ) : Nat := (g.subgeoms.map (ColSub.dataSize n v)).sum

def ColGeom.lodCount (g : ColGeom F φ) : Nat := (g.subgeoms.map fun s => s.lods.length).sum

theorem sum_flatMap {α β : Type} (l : List α) (f : α → List β) (w : β → Nat) :
    ((l.flatMap f).map w).sum = (l.map fun a => ((f a).map w).sum).sum := by
  induction l with
  | nil => rfl
  | cons a l ih => rw [List.flatMap_cons, List.map_append, List.sum_append, ih, List.map_cons, List.sum_cons]

theorem ColMesh.dataSize_eq (v : Int) (m : ColMesh F φ) :
    m.dataSize pl v = (m.geoms.map (ColGeom.dataSize pl.cLong v)).sum := by
  unfold ColMesh.dataSize ColMesh.lods
  rw [sum_flatMap]
  congr 1
  refine List.map_congr_left fun g _ => ?_
  rw [sum_flatMap]
  rfl

theorem ColMesh.lods_length (m : ColMesh F φ) : m.lods.length = (m.geoms.map ColGeom.lodCount).sum := by
  unfold ColMesh.lods ColGeom.lodCount
  rw [List.length_flatMap]
  congr 1
  refine List.map_congr_left fun g _ => ?_
  rw [List.length_flatMap]

section
variable [FArith F]

theorem colMergeLod_size (n : Nat) (v : Int) (h : Heap) (a b : ColLod F Nat) :
    (colMergeLod h a b).2.dataSize n v = a.dataSize n v + b.dataSize n v := by
  unfold colMergeLod
  have hl := mergeFaces_length b.vertnum h a.faces b.faces
  rcases hx : mergeFaces b.vertnum h a.faces b.faces with ⟨h', fs⟩
  rw [hx] at hl
  simp only at hl ⊢
  simp only [ColLod.dataSize, List.length_append, hl, Nat.mul_add]
  split_ifs <;> omega

theorem colMergeSub_size (n : Nat) (v : Int) {h h' : Heap} {a b c : ColSub F Nat}
    (hm : colMergeSub h a b = (h', c, none)) :
    c.dataSize n v = a.dataSize n v + b.dataSize n v ∧ c.lods.length = a.lods.length := by
  unfold colMergeSub at hm
  rcases hr : mergeAll (fun h a b => ((colMergeLod h a b).1, (colMergeLod h a b).2, none)) h a.lods
    b.lods with ⟨h1, l, e⟩
  simp only [hr] at hm
  cases hm
  have := mergeAll_sum (w := ColLod.dataSize n v) (k := fun _ => 0)
    (fun h a b h' c hc => by cases hc; exact ⟨colMergeLod_size n v h a b, rfl⟩) hr
  refine ⟨this.1, ?_⟩
  simpa using congrArg List.length this.2

theorem colMergeGeom_size (n : Nat) (v : Int) {h h' : Heap} {a b c : ColGeom F Nat}
    (hm : colMergeGeom h a b = (h', c, none)) :
    c.dataSize n v = a.dataSize n v + b.dataSize n v ∧ c.subgeoms.length = a.subgeoms.length ∧
      c.lodCount = a.lodCount := by
  unfold colMergeGeom at hm
  rcases hr : mergeAll colMergeSub h a.subgeoms b.subgeoms with ⟨h1, l, e⟩
  simp only [hr] at hm
  cases hm
  have := mergeAll_sum (w := ColSub.dataSize n v) (k := fun s => s.lods.length)
    (fun h a b h' c hc => colMergeSub_size n v hc) hr
  refine ⟨this.1, ?_, ?_⟩
  · simpa using congrArg List.length this.2
  · exact congrArg List.sum this.2

theorem colMerge_size (v : Int) {h h' : Heap} {a b c : ColMesh F Nat} (hm : colMerge h a b = (h', c, none)) :
    c.dataSize pl v = a.dataSize pl v + b.dataSize pl v ∧ c.frameSize pl = a.frameSize pl ∧
      c.version = a.version := by
  unfold colMerge at hm
  rcases hr : mergeAll colMergeGeom h a.geoms b.geoms with ⟨h1, l, e⟩
  simp only [hr] at hm
  cases hm
  have h1 := mergeAll_sum (w := ColGeom.dataSize pl.cLong v) (k := fun g => g.subgeoms.length)
    (fun h a b h' c hc => ⟨(colMergeGeom_size _ v hc).1, (colMergeGeom_size pl.cLong v hc).2.1⟩) hr
  have h2 := mergeAll_sum (w := ColGeom.dataSize pl.cLong v) (k := ColGeom.lodCount)
    (fun h a b h' c hc => ⟨(colMergeGeom_size _ v hc).1, (colMergeGeom_size pl.cLong v hc).2.2⟩) hr
  refine ⟨?_, ?_, rfl⟩
  · simp only [ColMesh.dataSize_eq]
    exact h1.1
  · have hl : l.length = a.geoms.length := by simpa using congrArg List.length h1.2
    unfold ColMesh.frameSize
    rw [ColMesh.lods_length, ColMesh.lods_length]
    simp only [h1.2, h2.2, hl]

theorem colTranslate_size (v : Int) (off : Vec3 F) (m : ColMesh F φ) :
    (colTranslate off m).dataSize pl v = m.dataSize pl v ∧ (colTranslate off m).frameSize pl = m.frameSize pl := by
  constructor
  · have e : (fun l : ColLod F φ => ColLod.dataSize pl.cLong v { l with vertices := l.vertices.map (·.plus off) }) =
        ColLod.dataSize pl.cLong v := by
      funext l
      simp only [ColLod.dataSize, List.length_map]
    simp only [ColMesh.dataSize, ColMesh.lods, colTranslate, List.flatMap_map, List.map_flatMap, List.map_map,
      Function.comp_def, e]
  · simp only [ColMesh.frameSize, ColMesh.lods, colTranslate, List.flatMap_map, List.length_flatMap, List.map_map,
      Function.comp_def, List.length_map]

end

end Bf2
