import Verif.Edit
import Verif.Spec
import Verif.MapLemmas

/-! # Reordering and merging move floats and never look at them -/

namespace Bf2

variable {F G : Type}

theorem trav_nat {σ τ α β : Type} {p : σ → τ} {q : α → β} {f : σ → α → σ × α × Option Err}
    {g : τ → β → τ × β × Option Err}
    (h : ∀ s a, g (p s) (q a) = (p (f s a).1, q (f s a).2.1, (f s a).2.2)) :
    ∀ (l : List α) (s : σ), trav g (p s) (l.map q) =
      (p (trav f s l).1, (trav f s l).2.1.map q, (trav f s l).2.2)
  | [], s => by simp [trav]
  | a :: as, s => by
    simp only [List.map_cons, trav, h]
    rcases f s a with ⟨s', a', _ | e⟩
    · simp only [trav_nat h as s', List.map_cons]
    · rfl

theorem trav2_nat {σ τ α β γ δ : Type} {p : σ → τ} {q : α → β} {r : γ → δ}
    {f : σ → α → γ → σ × α × Option Err} {g : τ → β → δ → τ × β × Option Err}
    (h : ∀ s a b, g (p s) (q a) (r b) = (p (f s a b).1, q (f s a b).2.1, (f s a b).2.2)) :
    ∀ (l : List α) (k : List γ) (s : σ), trav2 g (p s) (l.map q) (k.map r) =
      (p (trav2 f s l k).1, (trav2 f s l k).2.1.map q, (trav2 f s l k).2.2)
  | [], _, s => by simp [trav2]
  | a :: as, [], s => by simp [trav2]
  | a :: as, b :: bs, s => by
    simp only [List.map_cons, trav2, h]
    rcases f s a b with ⟨s', a', _ | e⟩
    · simp only [trav2_nat h as bs s', List.map_cons]
    · rfl

theorem all2_nat {α β γ δ : Type} {q : α → β} {r : γ → δ} {f : α → γ → Except Err Bool}
    {g : β → δ → Except Err Bool} (h : ∀ a b, g (q a) (r b) = f a b) :
    ∀ (l : List α) (k : List γ), all2 g (l.map q) (k.map r) = all2 f l k
  | [], _ => by simp [all2]
  | a :: as, [] => by simp [all2]
  | a :: as, b :: bs => by
    simp only [List.map_cons, all2, h, all2_nat h as bs]

theorem pySlice_map {α β : Type} (f : α → β) (l : List α) (a b : Int) :
    pySlice (l.map f) a b = (pySlice l a b).map f := by
  simp [pySlice, List.map_take, List.map_drop]

theorem matVertices_map (f : F → G) (vs : Nat) (l : List F) (m : Mat F) :
    matVertices vs (l.map f) (m.map f) = (matVertices vs l m).map f := pySlice_map f l _ _

/-! ## Reordering -/

def Arrays.map (f : F → G) (s : Arrays F) : Arrays G := ⟨s.vertices.map f, s.index⟩

theorem reorderMat_map (f : F → G) (vs : Nat) (m : Mesh F) (s : Arrays F) (mat : Mat F) :
    reorderMat vs (m.map f) (s.map f) (mat.map f) = ((reorderMat vs m s mat).1.map f,
      (reorderMat vs m s mat).2.1.map f, (reorderMat vs m s mat).2.2) := by
  have hv : (s.map f).vertices ++ matVertices vs (m.map f).vertices (mat.map f) =
      (s.vertices ++ matVertices vs m.vertices mat).map f := by
    rw [List.map_append]
    exact congrArg _ (matVertices_map f vs m.vertices mat)
  unfold reorderMat
  simp only [hv]
  rw [show (m.map f).index = m.index from rfl]
  cases m.index with
  | one a => rfl
  | many ix =>
    simp only
    split
    · rfl
    · simp only [List.length_map]; rfl

theorem reorderLod_map (f : F → G) (vs : Nat) (m : Mesh F) (s : Arrays F) (l : Lod F) :
    reorderLod vs (m.map f) (s.map f) (l.map f) = ((reorderLod vs m s l).1.map f,
      (reorderLod vs m s l).2.1.map f, (reorderLod vs m s l).2.2) := by
  unfold reorderLod
  rw [show (l.map f).materials = l.materials.map (Mat.map f) from rfl,
    trav_nat (p := Arrays.map f) (reorderMat_map f vs m)]
  rfl

theorem reorderGeom_map (f : F → G) (vs : Nat) (m : Mesh F) (s : Arrays F) (g : Geom F) :
    reorderGeom vs (m.map f) (s.map f) (g.map f) = ((reorderGeom vs m s g).1.map f,
      (reorderGeom vs m s g).2.1.map f, (reorderGeom vs m s g).2.2) := by
  unfold reorderGeom
  rw [show (g.map f).lods = g.lods.map (Lod.map f) from rfl,
    trav_nat (p := Arrays.map f) (reorderLod_map f vs m)]
  rfl

theorem reorderGeoms_map (f : F → G) (vs : Nat) (m : Mesh F) :
    ∀ (ids : List Int) (gs : List (Geom F)) (s : Arrays F),
      reorderGeoms vs (m.map f) (gs.map (Geom.map f)) (s.map f) ids =
        ⟨(reorderGeoms vs m gs s ids).geoms.map (Geom.map f),
          (reorderGeoms vs m gs s ids).arrays.map f, (reorderGeoms vs m gs s ids).order,
          (reorderGeoms vs m gs s ids).err⟩
  | [], gs, s => rfl
  | id :: ids, gs, s => by
    unfold reorderGeoms
    rw [List.length_map]
    rcases pyPos gs.length id with _ | j
    · rfl
    · simp only [List.getElem?_map]
      rcases gs[j]? with _ | g
      · rfl
      · simp only [Option.map_some, reorderGeom_map]
        rcases reorderGeom vs m s g with ⟨s', g', _ | e⟩
        · simp only [← List.map_set, reorderGeoms_map f vs m ids]
        · simp only [← List.map_set]

theorem changeGeomsOrder_map (f : F → G) (m : Mesh F) (order : List Int) :
    changeGeomsOrder (m.map f) order =
      ((changeGeomsOrder m order).1.map f, (changeGeomsOrder m order).2) := by
  unfold changeGeomsOrder
  rw [show (m.map f).geoms = m.geoms.map (Geom.map f) from rfl, List.length_map,
    show (m.map f).vattrs = m.vattrs from rfl]
  split
  · rfl
  · rcases vertexSize m.vattrs with e | vs
    · rfl
    · simp only
      rw [show (⟨[], []⟩ : Arrays G) = Arrays.map f ⟨[], []⟩ from rfl, reorderGeoms_map]
      rcases reorderGeoms vs m m.geoms ⟨[], []⟩ order with ⟨gs, s, js, _ | e⟩
      · simp only [Mesh.map, Arrays.map, List.map_filterMap, List.getElem?_map]
      · rfl

/-! ## Merging -/

theorem canMerge_map (f : F → G) (m o : Mesh F) : canMerge (m.map f) (o.map f) = canMerge m o := by
  have hm : ∀ a b : Mat F, canMergeMat (a.map f) (b.map f) = canMergeMat a b := fun _ _ => rfl
  have hl : ∀ a b : Lod F, canMergeLod (a.map f) (b.map f) = canMergeLod a b := by
    intro a b
    unfold canMergeLod
    rw [show (a.map f).materials = a.materials.map (Mat.map f) from rfl,
      show (b.map f).materials = b.materials.map (Mat.map f) from rfl, List.length_map,
      List.length_map, all2_nat hm]
  have hg : ∀ a b : Geom F, canMergeGeom (a.map f) (b.map f) = canMergeGeom a b := by
    intro a b
    unfold canMergeGeom
    rw [show (a.map f).lods = a.lods.map (Lod.map f) from rfl,
      show (b.map f).lods = b.lods.map (Lod.map f) from rfl, List.length_map,
      List.length_map, all2_nat hl]
  unfold canMerge
  rw [show (m.map f).geoms = m.geoms.map (Geom.map f) from rfl,
    show (o.map f).geoms = o.geoms.map (Geom.map f) from rfl, List.length_map,
    List.length_map, all2_nat hg]
  rfl

def MergeSt.map (f : F → G) (s : MergeSt F) : MergeSt G :=
  ⟨s.vertices.map f, s.index, s.vstart, s.istart, s.vertnum, s.indexnum⟩

theorem mergeMat_map (f : F → G) (m o : Mesh F) (s : MergeSt F) (a b : Mat F) :
    mergeMat (m.map f) (o.map f) (s.map f) (a.map f) (b.map f) = ((mergeMat m o s a b).1.map f,
      (mergeMat m o s a b).2.1.map f, (mergeMat m o s a b).2.2) := by
  unfold mergeMat
  rw [show (m.map f).vattrs = m.vattrs from rfl, show (m.map f).index = m.index from rfl,
    show (o.map f).vattrs = o.vattrs from rfl, show (o.map f).index = o.index from rfl]
  rcases vertexSize m.vattrs with e | vs
  · rfl
  · cases m.index with
    | one x => rfl
    | many ix =>
      rcases vertexSize o.vattrs with e | ovs
      · rfl
      · simp only
        rw [show (b.map f).istart = b.istart from rfl, show (a.map f).vnum = a.vnum from rfl,
          show (b.map f).inum = b.inum from rfl]
        rcases flatMapE (shiftIndex o.index b.istart a.vnum) (List.range b.inum.toNat) with e | sh
        · rfl
        · simp only
          rw [show (m.map f).vertices = m.vertices.map f from rfl, matVertices_map,
            show (o.map f).vertices = o.vertices.map f from rfl, matVertices_map,
            show (s.map f).vertices = s.vertices.map f from rfl, ← List.map_append,
            ← List.map_append]
          rfl

theorem mergeGeom_map (f : F → G) (m o : Mesh F) (s : MergeSt F) (a b : Geom F) :
    mergeGeom (m.map f) (o.map f) (s.map f) (a.map f) (b.map f) = ((mergeGeom m o s a b).1.map f,
      (mergeGeom m o s a b).2.1.map f, (mergeGeom m o s a b).2.2) := by
  have hl : ∀ (s : MergeSt F) (a b : Lod F),
      mergeLod (m.map f) (o.map f) (s.map f) (a.map f) (b.map f) = ((mergeLod m o s a b).1.map f,
        (mergeLod m o s a b).2.1.map f, (mergeLod m o s a b).2.2) := by
    intro s a b
    unfold mergeLod
    rw [show (a.map f).materials = a.materials.map (Mat.map f) from rfl,
      show (b.map f).materials = b.materials.map (Mat.map f) from rfl,
      trav2_nat (p := MergeSt.map f) (mergeMat_map f m o)]
    rfl
  unfold mergeGeom
  rw [show (a.map f).lods = a.lods.map (Lod.map f) from rfl,
    show (b.map f).lods = b.lods.map (Lod.map f) from rfl, trav2_nat (p := MergeSt.map f) hl]
  rfl

theorem merge_map (f : F → G) (m o : Mesh F) :
    merge (m.map f) (o.map f) = ((merge m o).1.map f, (merge m o).2) := by
  unfold merge
  rw [canMerge_map]
  rcases canMerge m o with e | _ | _
  · rfl
  · rfl
  · simp only
    rw [show (m.map f).geoms = m.geoms.map (Geom.map f) from rfl,
      show (o.map f).geoms = o.geoms.map (Geom.map f) from rfl,
      show (⟨[], [], 0, 0, 0, 0⟩ : MergeSt G) = MergeSt.map f ⟨[], [], 0, 0, 0, 0⟩ from rfl,
      trav2_nat (p := MergeSt.map f) (mergeGeom_map f m o)]
    rcases trav2 (mergeGeom m o) ⟨[], [], 0, 0, 0, 0⟩ m.geoms o.geoms with ⟨s, gs, _ | e⟩
    · simp only
      unfold mergeFinish
      rw [show (m.map f).index = m.index from rfl]
      cases m.index <;> rfl
    · rfl

end Bf2
