import Verif.OldSizeSpec
import Verif.OldOrderLemmas
import Verif.OldHistoryLemmas
import Verif.Props.Size
import Verif.Props.OldHistory
import Verif.TwinLemmas

/-! # Lemmas for C172 -/

namespace Bf2

section
variable {F : Type}

theorem OldLodWF.shown_size {k : Kind} {v : Int} {l : OldLod F} (h : OldLodWF k v l) (n : Nat) :
    LodInfo.size n k v l.shown.info = l.ownSize n k + (l.materials.map (Mat.size n k v)).sum := by
  have h1 := h.shown.1.nodes
  unfold LodInfo.size OldLod.ownSize Lod.info
  have e1 : l.shown.pivot = l.pivot := rfl
  have e2 : l.shown.rigs = l.rigs := rfl
  have e3 : l.shown.nodenum = l.nodenum.getD 0 := rfl
  have e4 : l.shown.materials = l.materials := rfl
  rw [e3] at h1
  simp only [e1, e2, e4, List.map_map]
  rcases hs : k.isSkinned
  · rw [hs, Bool.false_or] at h1
    simp only [Bool.false_eq_true, if_false, h1]
    rcases k.isBundled <;> rfl
  · simp only [if_true]
    rfl

theorem OldWF.shown_size {o : OldMesh F} (h : OldWF o) (pl : Plat) :
    o.shown.restSize pl + o.shown.dataSize = o.size pl := by
  unfold Mesh.restSize Mesh.dataSize OldMesh.size
  have e1 : o.shown.index.elems = o.index := shownIndex_elems _
  have e2 : o.shown.vattrs.length = o.vattrs.length := by
    show (o.vattrs.map VAttr.unsigned).length = _
    rw [List.length_map]
  have e3 : o.shown.geoms.length = o.geoms.length := by
    show (o.geoms.map OldGeom.shown).length = _
    rw [List.length_map]
  have e4 : (o.shown.geoms.map fun g => (g.info.2.map (LodInfo.size pl.cLong o.kind o.head.version)).sum) =
      o.geoms.map fun g => (g.lods.map fun l => l.ownSize pl.cLong o.kind +
        (l.materials.map (Mat.size pl.cLong o.kind o.head.version)).sum).sum := by
    show (o.geoms.map OldGeom.shown).map _ = _
    rw [List.map_map]
    apply List.map_congr_left
    intro g hg
    simp only [Function.comp, Geom.info, OldGeom.shown, List.map_map]
    congr 1
    apply List.map_congr_left
    intro l hl
    exact (h.lod g hg l hl).shown_size _
  have e5 : (o.geoms.map (OldGeom.size pl.cLong o.kind o.head.version)).sum = pl.cLong * o.geoms.length +
      (o.geoms.map fun g => (g.lods.map fun l => l.ownSize pl.cLong o.kind +
        (l.materials.map (Mat.size pl.cLong o.kind o.head.version)).sum).sum).sum := by
    unfold OldGeom.size
    generalize o.geoms = gs
    induction gs with
    | nil => rfl
    | cons g gs ih =>
      rw [List.map_cons, List.sum_cons, ih, List.map_cons, List.sum_cons, List.length_cons, Nat.mul_succ]
      omega
  have e6 : o.shown.kind = o.kind := rfl
  have e7 : o.shown.head = o.head := rfl
  have e8 : o.shown.vertices = o.vertices := rfl
  rw [e1, e2, e3, e5, e6, e7, e8, e4, Nat.mul_add, Nat.mul_add]
  omega

/-- Geoms with lods of the same sizes. -/
theorem sizes_like {n : Nat} {k : Kind} {v : Int} {gs gs' : List (OldGeom F)}
    (h : List.Forall₂ (fun g g' : OldGeom F => List.Forall₂ (fun l l' : OldLod F => l'.ownSize n k = l.ownSize n k ∧
      l'.materials.map (Mat.size n k v) = l.materials.map (Mat.size n k v)) g.lods g'.lods) gs gs') :
    gs'.map (OldGeom.size n k v) = gs.map (OldGeom.size n k v) := by
  refine forall₂_map_eq h ?_
  intro g g' hg
  unfold OldGeom.size
  congr 2
  refine forall₂_map_eq hg ?_
  rintro l l' ⟨h1, h2⟩
  rw [h1, h2]

theorem sizes_grown [FArith F] {n vs p : Nat} {k : Kind} {v : Int} {m : OldMesh F} {gs : List (OldGeom F)}
    (h : BoundsGrown vs p m gs) : gs.map (OldGeom.size n k v) = m.geoms.map (OldGeom.size n k v) := by
  refine sizes_like (List.Forall₂.imp ?_ h)
  rintro g g' ⟨-, hg⟩
  refine hg.imp ?_
  intro l l' hl
  refine ⟨?_, ?_⟩
  · rw [← hl.rest]; rfl
  · refine forall₂_map_eq hl.mats ?_
    rintro a a' ⟨_, _, _, _, -, -, e, -⟩
    rw [e]; rfl

/-- Sizes of geoms, all lods and then all materials. -/
theorem sizes_flat (n : Nat) (k : Kind) (v : Int) (gs : List (OldGeom F)) :
    (gs.map (OldGeom.size n k v)).sum = n * gs.length +
      (gs.map fun g => ((g.lods.map fun l => l.ownSize n k).sum)).sum +
      ((gs.flatMap OldGeom.mats).map (Mat.size n k v)).sum := by
  induction gs with
  | nil => rfl
  | cons g gs ih =>
    have e : (g.lods.map fun l => l.ownSize n k + (l.materials.map (Mat.size n k v)).sum).sum =
        (g.lods.map fun l => l.ownSize n k).sum + (g.mats.map (Mat.size n k v)).sum := by
      unfold OldGeom.mats
      generalize g.lods = ls
      induction ls with
      | nil => rfl
      | cons l ls ih2 =>
        rw [List.map_cons, List.sum_cons, ih2, List.map_cons, List.sum_cons, List.flatMap_cons, List.map_append,
          List.sum_append]
        omega
    rw [List.map_cons, List.sum_cons, ih, List.map_cons, List.sum_cons, List.flatMap_cons, List.map_append,
      List.sum_append, List.length_cons, Nat.mul_succ, OldGeom.size, e]
    omega

theorem own_of_shape (n : Nat) (k : Kind) {gs gs' : List (OldGeom F)}
    (h : gs'.map OldGeom.shape = gs.map OldGeom.shape) :
    (gs'.map fun g => ((g.lods.map fun l => l.ownSize n k).sum)) =
      gs.map fun g => ((g.lods.map fun l => l.ownSize n k).sum) := by
  have e : ∀ gs : List (OldGeom F), (gs.map fun g => ((g.lods.map fun l => l.ownSize n k).sum)) =
      (gs.map OldGeom.shape).map fun x => (x.2.map fun y => y.1.ownSize n k).sum := by
    intro gs
    rw [List.map_map]
    apply List.map_congr_left
    intro g _
    simp only [Function.comp, OldGeom.shape, List.map_map]
    rfl
  rw [e, e, h]

theorem retile_size (n : Nat) (k : Kind) (v : Int) {as bs : List (Mat F)} (h : as.length = bs.length) (x y : Int) :
    (retile x y (List.zipWith addCounts as bs)).map (Mat.size n k v) = as.map (Mat.size n k v) := by
  induction as generalizing bs x y with
  | nil => rfl
  | cons a as ih =>
    cases bs with
    | nil => cases h
    | cons b bs =>
      rw [List.zipWith_cons_cons, retile, List.map_cons, ih (Nat.succ.inj h), List.map_cons]
      rfl

theorem sum_set (l : List Nat) (i : Nat) (a b : Nat) (h : l[i]? = some a) : (l.set i b).sum + a = l.sum + b := by
  induction l generalizing i with
  | nil => cases h
  | cons c l ih =>
    cases i with
    | zero =>
      obtain rfl : c = a := by simpa using h
      rw [List.set_cons_zero, List.sum_cons, List.sum_cons]; omega
    | succ i =>
      have := ih i (by simpa using h)
      rw [List.set_cons_succ, List.sum_cons, List.sum_cons]; omega

theorem sum_map_set {α : Type} (f : α → Nat) {l : List α} {i : Nat} {a b : α} (h : l[i]? = some a) :
    ((l.set i b).map f).sum + f a = (l.map f).sum + f b := by
  rw [List.map_set]
  exact sum_set _ _ _ _ (by rw [List.getElem?_map, h]; rfl)

theorem sum_eraseIdx {α : Type} (f : α → Nat) {l : List α} {i : Nat} {a : α} (h : l[i]? = some a) :
    ((l.eraseIdx i).map f).sum + f a = (l.map f).sum := by
  induction l generalizing i with
  | nil => cases h
  | cons c l ih =>
    cases i with
    | zero =>
      obtain rfl : c = a := by simpa using h
      simp [Nat.add_comm]
    | succ i =>
      have := ih (i := i) (by simpa using h)
      rw [List.eraseIdx_cons_succ, List.map_cons, List.sum_cons, List.map_cons, List.sum_cons]; omega

/-- The size, if only data and geoms differ. -/
theorem OldMesh.size_rest {pl : Plat} {m m' : OldMesh F} (kind : m'.kind = m.kind) (head : m'.head = m.head)
    (vattrs : m'.vattrs = m.vattrs) :
    m'.size pl + 4 * m.vertices.length + 2 * m.index.length +
        (m.geoms.map (OldGeom.size pl.cLong m.kind m.head.version)).sum =
      m.size pl + 4 * m'.vertices.length + 2 * m'.index.length +
        (m'.geoms.map (OldGeom.size pl.cLong m.kind m.head.version)).sum := by
  unfold OldMesh.size
  rw [kind, head, vattrs]
  omega

end

theorem geomSize_boxless (n : Nat) (k : Kind) (v : Int) (g : OldGeom F64) :
    OldGeom.size n k v g.boxless = OldGeom.size n k v g := by
  unfold OldGeom.size OldGeom.boxless
  simp only [List.map_map]
  congr 2
  apply List.map_congr_left
  intro l _
  simp only [Function.comp, OldLod.boxless, List.map_map]
  rfl

theorem old_size {m : Mesh F64} (wf : MeshWF m) (pl : Plat) : m.old.size pl = m.restSize pl + m.dataSize := by
  have hg : m.old.geoms.map (OldGeom.size pl.cLong m.kind m.head.version) =
      m.geoms.map fun g => pl.cLong + (g.info.2.map (LodInfo.size pl.cLong m.kind m.head.version)).sum := by
    have e : ∀ G : List (OldGeom F64), G.map (OldGeom.size pl.cLong m.kind m.head.version) =
        (G.map OldGeom.boxless).map (OldGeom.size pl.cLong m.kind m.head.version) := by
      intro G
      rw [List.map_map]
      exact List.map_congr_left fun g _ => (geomSize_boxless _ _ _ g).symm
    rw [e]
    have e2 : m.old.geoms.map OldGeom.boxless = m.geoms.map (Geom.boxless m.kind) := oldGeoms_boxless m.kind m.geoms []
    rw [e2, List.map_map]
    apply List.map_congr_left
    intro g hg
    unfold Geom.info Geom.boxless Geom.old0 OldGeom.boxless OldGeom.size
    simp only [Function.comp, List.map_map]
    congr 2
    apply List.map_congr_left
    intro l hl
    show _ = LodInfo.size pl.cLong m.kind m.head.version l.info
    rw [← size_boxless ((wf.geom g hg).nodes l hl)]
    unfold OldLod.size OldLod.ownSize Mat.size
    simp only [Function.comp, List.map_map]
    rfl
  have hs : ∀ gs : List (Geom F64),
      (gs.map fun g => pl.cLong + (g.info.2.map (LodInfo.size pl.cLong m.kind m.head.version)).sum).sum =
      pl.cLong * gs.length + (gs.map fun g => (g.info.2.map (LodInfo.size pl.cLong m.kind m.head.version)).sum).sum := by
    intro gs
    induction gs with
    | nil => rfl
    | cons g gs ih =>
      rw [List.map_cons, List.sum_cons, ih, List.map_cons, List.sum_cons, List.length_cons, Nat.mul_succ]
      omega
  have e6 : m.old.kind = m.kind := rfl
  have e7 : m.old.head = m.head := rfl
  have e8 : m.old.vertices = m.vertices := rfl
  have e9 : m.old.index = m.index.elems := rfl
  have e10 : m.old.vattrs.length = m.vattrs.length := by simp [Mesh.old]
  unfold OldMesh.size Mesh.restSize Mesh.dataSize
  rw [e6, e7, e8, e9, e10, hg, hs, Nat.mul_add, Nat.mul_add, Nat.mul_add]
  omega

end Bf2
