import Verif.FrameSpec
import Verif.SharedLemmas
import Verif.ReorderFailLemmas

/-! # Lemmas for C145 -/

namespace Bf2

variable {F : Type}

/-! ## Loops that keep something of each element -/

theorem map_set_eq {α β : Type} {p : α → β} {os : List α} {j : Nat} {a a' : α} (h : os[j]? = some a)
    (hp : p a' = p a) : (os.set j a').map p = os.map p := by
  rw [List.map_set, hp]
  apply List.ext_getElem?
  intro i
  rw [List.getElem?_set]
  by_cases hij : j = i
  · subst hij
    obtain ⟨hl, he⟩ := List.getElem?_eq_some_iff.1 h
    rw [if_pos rfl, if_pos (by simpa using hl), List.getElem?_map, h]
    rfl
  · rw [if_neg hij]

theorem trav_keeps {σ α β : Type} {f : σ → α → σ × α × Option Err} {p : α → β}
    (hf : ∀ s a, p (f s a).2.1 = p a) (s : σ) (l : List α) : (trav f s l).2.1.map p = l.map p :=
  map_eq_of_forall₂ (trav_forall₂ (R := fun a a' => p a' = p a) hf (fun _ => rfl) s l)

theorem trav2_keeps {σ α β γ : Type} {f : σ → α → β → σ × α × Option Err} {p : α → γ}
    (hf : ∀ s a b, p (f s a b).2.1 = p a) (s : σ) (l : List α) (r : List β) :
    (trav2 f s l r).2.1.map p = l.map p := by
  induction l generalizing s r with
  | nil => rfl
  | cons a l ih =>
    rcases r with _ | ⟨b, r⟩
    · rfl
    rw [trav2]
    have h1 := hf s a b
    rcases hfa : f s a b with ⟨s', a', _ | e⟩
    · rw [hfa] at h1
      simp only [List.map_cons, ih s' r]
      rw [h1]
    · rw [hfa] at h1
      simp only [List.map_cons]
      rw [h1]

theorem travAt_keeps {σ α β : Type} {f : σ → α → σ × α × Option Err} {p : α → β}
    (hf : ∀ s a, p (f s a).2.1 = p a) (js : List Nat) (s : σ) (os : List α) :
    (travAt f s os js).2.1.map p = os.map p := by
  induction js generalizing s os with
  | nil => rfl
  | cons j js ih =>
    rw [travAt]
    rcases hj : os[j]? with _ | a
    · rfl
    simp only
    have h1 := hf s a
    rcases hfa : f s a with ⟨s', a', _ | e⟩
    · rw [hfa] at h1
      simp only
      rw [ih, map_set_eq hj h1]
    · rw [hfa] at h1
      exact map_set_eq hj h1

theorem travAt2_keeps {σ α β γ : Type} {f : σ → α → β → σ × α × Option Err} {p : α → γ}
    (hf : ∀ s a b, p (f s a b).2.1 = p a) (js : List Nat) (s : σ) (os : List α) (r : List β) :
    (travAt2 f s os js r).2.1.map p = os.map p := by
  induction js generalizing s os r with
  | nil => rfl
  | cons j js ih =>
    rcases r with _ | ⟨b, r⟩
    · rfl
    rw [travAt2]
    rcases hj : os[j]? with _ | a
    · rfl
    simp only
    have h1 := hf s a b
    rcases hfa : f s a b with ⟨s', a', _ | e⟩
    · rw [hfa] at h1
      simp only
      rw [ih, map_set_eq hj h1]
    · rw [hfa] at h1
      exact map_set_eq hj h1

theorem reorderAt_keeps {γ : Type} {p : Geom F → γ} {vs : Nat} {m : Mesh F}
    (hf : ∀ s g, p (reorderGeom vs m s g).2.1 = p g) (slots : List Nat) (ids : List Int)
    (os : List (Geom F)) (s : Arrays F) : (reorderAt vs m slots os s ids).geoms.map p = os.map p := by
  induction ids generalizing os s with
  | nil => rfl
  | cons id ids ih =>
    rw [reorderAt]
    rcases pyGet slots id with _ | j
    · rfl
    simp only
    rcases hj : os[j]? with _ | g
    · rfl
    simp only
    have h1 := hf s g
    rcases hfa : reorderGeom vs m s g with ⟨s', g', _ | e⟩
    · rw [hfa] at h1
      simp only
      rw [ih, map_set_eq hj h1]
    · rw [hfa] at h1
      exact map_set_eq hj h1

/-! ## What the calls keep of a geom -/

section calls
variable [FArith F]

/-- What the methods that change a geom keep of it. -/
structure Keeps {γ : Type} (p : Geom F → γ) (c : EditCall F) : Prop where
  bound : c.bounds → ∀ (m : Mesh F) u g, p (boundGeom m u g).2.1 = p g
  reorder : c.reorders → ∀ vs (m : Mesh F) s g, p (reorderGeom vs m s g).2.1 = p g
  merge : c.merges → ∀ (m o : Mesh F) s g og, p (mergeGeom m o s g og).2.1 = p g
  mergeSelf : c.merges → ∀ (m : Mesh F) s g, p (mergeGeomSelf m s g).2.1 = p g

omit [FArith F] in
theorem outcome_fst {α : Type} (r : α × Option Err) : (outcome (F := F) r).1 = r.1 := by
  rcases r with ⟨t, _ | e⟩ <;> rfl

omit [FArith F] in
theorem outcomePoint_fst {α : Type} (r : α × Except Err (Vec3 F)) : (outcomePoint r).1 = r.1 := by
  rcases r with ⟨t, e | _⟩ <;> rfl

omit [FArith F] in
theorem outcomeMerge_fst {α : Type} (r : α × Except Err MergeRet) : (outcomeMerge (F := F) r).1 = r.1 := by
  rcases r with ⟨t, e | _ | _⟩ <;> rfl

theorem sharedCenter_fst (s : Shared F) (g l : Int) (u : Bool) :
    (s.getLodCenterOffset g l u).1 = s ∨ (u = true ∧ (s.getLodCenterOffset g l u).1 = s.updateBoundaries.1) := by
  unfold Shared.getLodCenterOffset
  rcases lodPos s.look g l with _ | p
  · exact .inl rfl
  simp only
  cases u with
  | false =>
    left
    simp only [Bool.false_eq_true, if_false]
    rcases s.lodAt p <;> rfl
  | true =>
    right
    simp only [if_true]
    rcases hs : s.updateBoundaries with ⟨s', _ | e⟩
    · simp only
      rcases s'.lodAt p <;> exact ⟨trivial, rfl⟩
    · exact ⟨trivial, rfl⟩

/-- What a call leaves of the rest of the mesh. -/
structure Frame (c : EditCall F) (m m' : Mesh F) : Prop where
  format : SameFormat m m'
  counts : ¬ c.merges → m'.vertnum = m.vertnum ∧ m'.indexnum = m.indexnum
  index : ¬ c.merges → ¬ c.reorders → m'.index = m.index
  vertices : ¬ c.moves → ¬ c.merges → ¬ c.reorders → m'.vertices = m.vertices

theorem runShared_frame [Libm F] {γ : Type} {p : Geom F → γ} (s : Shared F) {c : EditCall F}
    (k : Keeps p c) : (c.runShared s).1.mesh.geoms.map p = s.mesh.geoms.map p ∧
      Frame c s.mesh (c.runShared s).1.mesh := by
  have same : SameFormat s.mesh s.mesh := ⟨rfl, rfl, rfl, rfl, rfl, rfl, rfl, rfl, rfl⟩
  have nothing : ∀ c : EditCall F, Frame c s.mesh s.mesh :=
    fun _ => ⟨same, fun _ => ⟨rfl, rfl⟩, fun _ _ => rfl, fun _ _ _ => rfl⟩
  have fin : ∀ (os : List (Geom F)) (st : MergeSt F), (s.mergeFinish os st).1.mesh.geoms = os ∧
      SameFormat s.mesh (s.mergeFinish os st).1.mesh := by
    intro os st
    unfold Shared.mergeFinish mergeFinish
    rcases s.mesh.index <;> exact ⟨rfl, ⟨rfl, rfl, rfl, rfl, rfl, rfl, rfl, rfl, rfl⟩⟩
  have up : ∀ c : EditCall F, (∀ (m : Mesh F) u g, p (boundGeom m u g).2.1 = p g) →
      s.updateBoundaries.1.mesh.geoms.map p = s.mesh.geoms.map p ∧
      Frame c s.mesh s.updateBoundaries.1.mesh := fun _ k => by
    refine ⟨?_, ⟨rfl, rfl, rfl, rfl, rfl, rfl, rfl, rfl, rfl⟩, fun _ => ⟨rfl, rfl⟩, fun _ _ => rfl, fun _ _ _ => rfl⟩
    exact travAt_keeps (f := boundGeom s.mesh) (k s.mesh) s.slots () s.mesh.geoms
  cases c with
  | translate d =>
    rw [EditCall.runShared, outcome_fst]
    exact ⟨rfl, ⟨rfl, rfl, rfl, rfl, rfl, rfl, rfl, rfl, rfl⟩, fun _ => ⟨rfl, rfl⟩, fun _ _ => rfl,
      fun h => absurd trivial h⟩
  | rotate d =>
    rw [EditCall.runShared, outcome_fst]
    exact ⟨rfl, ⟨rfl, rfl, rfl, rfl, rfl, rfl, rfl, rfl, rfl⟩, fun _ => ⟨rfl, rfl⟩, fun _ _ => rfl,
      fun h => absurd trivial h⟩
  | update =>
    rw [EditCall.runShared, outcome_fst]
    exact up _ (k.bound trivial)
  | center g l u =>
    rw [EditCall.runShared, outcomePoint_fst]
    rcases sharedCenter_fst s g l u with h | ⟨rfl, h⟩
    · rw [h]
      exact ⟨rfl, nothing _⟩
    · rw [h]
      exact up _ (k.bound trivial)
  | reorder order =>
    rw [EditCall.runShared, outcome_fst]
    unfold Shared.changeGeomsOrder
    split
    · exact ⟨rfl, nothing _⟩
    rcases vertexSize s.mesh.vattrs with e | vs
    · exact ⟨rfl, nothing _⟩
    simp only
    have h1 := reorderAt_keeps (k.reorder trivial vs s.mesh) s.slots order s.mesh.geoms ⟨[], []⟩
    rcases hr : reorderAt vs s.mesh s.slots s.mesh.geoms ⟨[], []⟩ order with ⟨os, a, js, _ | e⟩
    all_goals
      rw [hr] at h1
      exact ⟨h1, ⟨rfl, rfl, rfl, rfl, rfl, rfl, rfl, rfl, rfl⟩, fun _ => ⟨rfl, rfl⟩,
        fun _ h => absurd trivial h, fun _ _ h => absurd trivial h⟩
  | merge o =>
    rw [EditCall.runShared, outcomeMerge_fst]
    unfold Shared.merge
    rcases canMerge s.look o with e | _ | _
    · exact ⟨rfl, nothing _⟩
    · exact ⟨rfl, nothing _⟩
    simp only
    have h1 := travAt2_keeps (k.merge trivial s.mesh o) s.slots ⟨[], [], 0, 0, 0, 0⟩ s.mesh.geoms o.geoms
    rcases hr : travAt2 (mergeGeom s.mesh o) ⟨[], [], 0, 0, 0, 0⟩ s.mesh.geoms s.slots o.geoms with
      ⟨st, os, _ | e⟩
    · rw [hr] at h1
      simp only
      rw [(fin os st).1]
      exact ⟨h1, (fin os st).2, fun h => absurd trivial h, fun h => absurd trivial h, fun _ h => absurd trivial h⟩
    · rw [hr] at h1
      exact ⟨h1, ⟨rfl, rfl, rfl, rfl, rfl, rfl, rfl, rfl, rfl⟩, fun _ => ⟨rfl, rfl⟩,
        fun h => absurd trivial h, fun _ h => absurd trivial h⟩
  | mergeSelf =>
    rw [EditCall.runShared, outcomeMerge_fst]
    unfold Shared.mergeSelf
    rcases canMerge s.look s.look with e | _ | _
    · exact ⟨rfl, nothing _⟩
    · exact ⟨rfl, nothing _⟩
    simp only
    have h1 := travAt_keeps (k.mergeSelf trivial s.mesh) s.slots ⟨[], [], 0, 0, 0, 0⟩ s.mesh.geoms
    rcases hr : travAt (mergeGeomSelf s.mesh) ⟨[], [], 0, 0, 0, 0⟩ s.mesh.geoms s.slots with
      ⟨st, os, _ | e⟩
    · rw [hr] at h1
      simp only
      rw [(fin os st).1]
      exact ⟨h1, (fin os st).2, fun h => absurd trivial h, fun h => absurd trivial h, fun _ h => absurd trivial h⟩
    · rw [hr] at h1
      exact ⟨h1, ⟨rfl, rfl, rfl, rfl, rfl, rfl, rfl, rfl, rfl⟩, fun _ => ⟨rfl, rfl⟩,
        fun h => absurd trivial h, fun _ h => absurd trivial h⟩

/-- Any number of calls. -/
theorem runCalls_frame [Libm F] {γ : Type} {p : Geom F → γ} {cs : List (EditCall F)}
    (k : ∀ c ∈ cs, Keeps p c) (s : Shared F) (hv : s.Valid) :
    let s' := (runCalls EditCall.runShared s cs).1
    s'.Valid ∧ s'.mesh.geoms.map p = s.mesh.geoms.map p ∧ s'.slots.length = s.slots.length ∧
      (∀ j ∈ s'.slots, j ∈ s.slots) ∧ ((∀ c ∈ cs, ¬ c.reorders) → s'.slots = s.slots) ∧
      SameFormat s.mesh s'.mesh ∧
      ((∀ c ∈ cs, ¬ c.merges) → s'.mesh.vertnum = s.mesh.vertnum ∧ s'.mesh.indexnum = s.mesh.indexnum) ∧
      ((∀ c ∈ cs, ¬ c.merges ∧ ¬ c.reorders) → s'.mesh.index = s.mesh.index) ∧
      ((∀ c ∈ cs, ¬ c.moves ∧ ¬ c.merges ∧ ¬ c.reorders) → s'.mesh.vertices = s.mesh.vertices) := by
  induction cs generalizing s with
  | nil =>
    exact ⟨hv, rfl, rfl, fun _ h => h, fun _ => rfl, ⟨rfl, rfl, rfl, rfl, rfl, rfl, rfl, rfl, rfl⟩,
      fun _ => ⟨rfl, rfl⟩, fun _ => rfl, fun _ => rfl⟩
  | cons c cs ih =>
    have hc := runShared_frame s (k c (List.mem_cons_self ..))
    have hs := runShared_shape s c
    obtain ⟨h1, h2, h3, h4, h5, h6, h7, h8, h9⟩ :=
      ih (fun c hc => k c (List.mem_cons_of_mem _ hc)) (c.runShared s).1 (runShared_valid hv c)
    have e : (runCalls EditCall.runShared s (c :: cs)).1 =
        (runCalls EditCall.runShared (c.runShared s).1 cs).1 := rfl
    dsimp only
    rw [e]
    have hsl : (c.runShared s).1.slots.length = s.slots.length ∧
        (∀ j ∈ (c.runShared s).1.slots, j ∈ s.slots) ∧
        (¬ c.reorders → (c.runShared s).1.slots = s.slots) := by
      rcases hs.2 with h | ⟨order, rfl, hl, hf⟩
      · rw [h]
        exact ⟨rfl, fun _ h => h, fun _ => rfl⟩
      · refine ⟨by rw [← hf.length_eq, hl], fun j hj => ?_, fun h => absurd trivial h⟩
        obtain ⟨i, hi⟩ := List.mem_iff_getElem?.1 hj
        obtain ⟨id, _, hid⟩ := forall₂_get_right hf hi
        rw [pyGet_pos] at hid
        rcases hp : pyPos s.slots.length id with _ | q
        · rw [hp] at hid; cases hid
        · rw [hp] at hid
          exact List.mem_of_getElem? hid
    have f := hc.2.format
    refine ⟨h1, h2.trans hc.1, h3.trans hsl.1, fun j hj => hsl.2.1 j (h4 j hj), fun h => ?_, ?_, fun h => ?_,
      fun h => ?_, fun h => ?_⟩
    · rw [List.forall_mem_cons] at h
      exact (h5 h.2).trans (hsl.2.2 h.1)
    · exact ⟨h6.kind.trans f.kind, h6.head.trans f.head, h6.geomnum.trans f.geomnum,
        h6.vertattribnum.trans f.vertattribnum, h6.vattrs.trans f.vattrs, h6.vertformat.trans f.vertformat,
        h6.vertstride.trans f.vertstride, h6.u1.trans f.u1, h6.u2.trans f.u2⟩
    · rw [List.forall_mem_cons] at h
      have a := h7 h.2
      have b := hc.2.counts h.1
      exact ⟨a.1.trans b.1, a.2.trans b.2⟩
    · rw [List.forall_mem_cons] at h
      exact (h8 h.2).trans (hc.2.index h.1.1 h.1.2)
    · rw [List.forall_mem_cons] at h
      exact (h9 h.2).trans (hc.2.vertices h.1.1 h.1.2.1 h.1.2.2)

/-! ## The single geoms -/

theorem bound_info (m : Mesh F) (u : Unit) (g : Geom F) :
    (boundGeom m u g).2.1.info = g.info ∧ (boundGeom m u g).2.1.amounts = g.amounts ∧
      (boundGeom m u g).2.1.places = g.places := by
  have h := boundGeom_bounded m u g
  generalize (boundGeom m u g).2.1 = g' at h
  obtain ⟨hf, hl⟩ := h
  rw [hf]
  have mats : ∀ {β : Type} (t : Mat F → β), (∀ (a : Mat F) x y, t { a with mmin := x, mmax := y } = t a) →
      ∀ l l' : Lod F, LodBounded m l l' → l'.materials.map t = l.materials.map t := fun t ht l l' h =>
    map_eq_of_forall₂ (h.mats.imp fun a a' ha => by rw [ha.fields]; exact ht a _ _)
  refine ⟨congrArg (Prod.mk g.lodnum) (map_eq_of_forall₂ (hl.imp fun l l' h => ?_)),
    map_eq_of_forall₂ (hl.imp fun l l' h => mats _ (fun _ _ _ => rfl) l l' h),
    map_eq_of_forall₂ (hl.imp fun l l' h => mats _ (fun _ _ _ => rfl) l l' h)⟩
  have := mats Mat.info (fun _ _ _ => rfl) l l' h
  rw [h.fields, Lod.info, Lod.info]
  exact congrArg (LodInfo.mk _ _ _ _ _ _) this

end calls

theorem reorder_info (vs : Nat) (m : Mesh F) (s : Arrays F) (g : Geom F) :
    (reorderGeom vs m s g).2.1.info = g.info ∧ (reorderGeom vs m s g).2.1.amounts = g.amounts ∧
      (reorderGeom vs m s g).2.1.boxes = g.boxes := by
  have hm : ∀ s (a : Mat F), (reorderMat vs m s a).2.1 = { a with
      vstart := (reorderMat vs m s a).2.1.vstart, istart := (reorderMat vs m s a).2.1.istart } := by
    intro s a
    unfold reorderMat
    rcases m.index with v | ix
    · rfl
    · simp only
      split <;> rfl
  have hl : ∀ s (l : Lod F), (reorderLod vs m s l).2.1 =
      { l with materials := (trav (reorderMat vs m) s l.materials).2.1 } := fun _ _ => rfl
  refine ⟨congrArg (Prod.mk g.lodnum) (trav_keeps (fun s l => ?_) s g.lods),
    trav_keeps (fun s l => ?_) s g.lods, trav_keeps (fun s l => ?_) s g.lods⟩
  · rw [hl]
    exact congrArg (LodInfo.mk _ _ _ _ _ _) (trav_keeps (fun s a => by rw [hm]; rfl) s l.materials)
  · rw [hl]
    exact trav_keeps (fun s a => by rw [hm]) s l.materials
  · rw [hl]
    exact congrArg (fun x => (l.min, l.max, x)) (trav_keeps (fun s a => by rw [hm]) s l.materials)

theorem merge_info (m o : Mesh F) (s : MergeSt F) (g og : Geom F) :
    (mergeGeom m o s g og).2.1.info = g.info ∧ (mergeGeom m o s g og).2.1.boxes = g.boxes := by
  have hm : ∀ s (a b : Mat F), (mergeMat m o s a b).2.1.info = a.info ∧
      ((mergeMat m o s a b).2.1.mmin, (mergeMat m o s a b).2.1.mmax) = (a.mmin, a.mmax) := by
    intro s a b
    unfold mergeMat
    repeat' split
    all_goals exact ⟨rfl, rfl⟩
  have hl : ∀ s (l ol : Lod F), (mergeLod m o s l ol).2.1 =
      { l with materials := (trav2 (mergeMat m o) s l.materials ol.materials).2.1 } := fun _ _ _ => rfl
  refine ⟨congrArg (Prod.mk g.lodnum) (trav2_keeps (fun s l ol => ?_) s g.lods og.lods),
    trav2_keeps (fun s l ol => ?_) s g.lods og.lods⟩
  · rw [hl]
    exact congrArg (LodInfo.mk _ _ _ _ _ _) (trav2_keeps (fun s a b => (hm s a b).1) s l.materials _)
  · rw [hl]
    exact congrArg (fun x => (l.min, l.max, x)) (trav2_keeps (fun s a b => (hm s a b).2) s l.materials _)

theorem mergeSelf_info (m : Mesh F) (s : MergeSt F) (g : Geom F) :
    (mergeGeomSelf m s g).2.1.info = g.info ∧ (mergeGeomSelf m s g).2.1.boxes = g.boxes := by
  have hm : ∀ s (a : Mat F), (mergeMatSelf m s a).2.1.info = a.info ∧
      ((mergeMatSelf m s a).2.1.mmin, (mergeMatSelf m s a).2.1.mmax) = (a.mmin, a.mmax) := by
    intro s a
    unfold mergeMatSelf
    repeat' split
    all_goals exact ⟨rfl, rfl⟩
  have hl : ∀ s (l : Lod F), (mergeLodSelf m s l).2.1 =
      { l with materials := (trav (mergeMatSelf m) s l.materials).2.1 } := fun _ _ => rfl
  refine ⟨congrArg (Prod.mk g.lodnum) (trav_keeps (fun s l => ?_) s g.lods),
    trav_keeps (fun s l => ?_) s g.lods⟩
  · rw [hl]
    exact congrArg (LodInfo.mk _ _ _ _ _ _) (trav_keeps (fun s a => (hm s a).1) s l.materials)
  · rw [hl]
    exact congrArg (fun x => (l.min, l.max, x)) (trav_keeps (fun s a => (hm s a).2) s l.materials)

/-! ## Reading through the references -/

section look
variable [FArith F] [Libm F]

omit [FArith F] [Libm F] in
theorem look_map {γ : Type} (p : Geom F → γ) (s : Shared F) :
    s.look.geoms.map p = s.slots.filterMap fun j => (s.mesh.geoms.map p)[j]? := by
  rw [Shared.look]
  simp only [List.map_filterMap, List.getElem?_map]

omit [FArith F] [Libm F] in
theorem loaded_valid (m : Mesh F) : (Shared.loaded m).Valid := fun _ hj => List.mem_range.1 hj

omit [FArith F] [Libm F] in
theorem loaded_look_geoms (m : Mesh F) : (Shared.loaded m).look.geoms = m.geoms := by
  rw [Shared.look, Shared.loaded]
  simp only
  rw [filterMap_range]

/-- What calls keep of geoms, as seen. -/
theorem calls_seen {γ : Type} {p : Geom F → γ} (m : Mesh F) {cs : List (EditCall F)}
    (k : ∀ c ∈ cs, Keeps p c) :
    let m' := (runCalls EditCall.runShared (Shared.loaded m) cs).1.look
    m'.geoms.length = m.geoms.length ∧ (∀ g' ∈ m'.geoms, ∃ g ∈ m.geoms, p g' = p g) ∧
      ((∀ c ∈ cs, ¬ c.reorders) → m'.geoms.map p = m.geoms.map p) := by
  obtain ⟨h1, h2, h3, h4, h5, -⟩ := runCalls_frame k (Shared.loaded m) (loaded_valid m)
  dsimp only
  generalize (runCalls EditCall.runShared (Shared.loaded m) cs).1 = s at h1 h2 h3 h4 h5
  refine ⟨?_, ?_, fun h => ?_⟩
  · rw [look_geoms, lookAt_length h1, h3]
    exact List.length_range
  · intro g' hg
    obtain ⟨j, hj, hjg⟩ := List.mem_filterMap.1 hg
    have h := congrArg (fun l => l[j]?) h2
    simp only [List.getElem?_map, hjg] at h
    rcases hg : (Shared.loaded m).mesh.geoms[j]? with _ | g
    · rw [hg] at h
      cases h
    · rw [hg] at h
      exact ⟨g, List.mem_of_getElem? hg, by simpa using h⟩
  · rw [look_map, h2, h5 h, ← look_map, loaded_look_geoms]

end look

end Bf2
