import Verif.SizeLemmas
import Verif.Props.Frame
import Verif.Props.History
import Verif.Props.Layout
import Verif.Props.Reorder

/-!
# C151: how long a saved file is

The length follows from the numbers of things in the mesh, and no edit but `merge` changes it.
-/

namespace Bf2

variable {F : Type}

/-! ## The length of a file -/

/-- **C151.** A file that loads has the length that its mesh says. -/
theorem C151_loaded {pl : Plat} {k : Kind} {file : Bytes} {m : Mesh F64} (loaded : load pl k file = .ok m) :
    file.length = m.restSize pl + m.dataSize := by
  obtain ⟨r, h1, -, -, rfl, rfl⟩ := (C58_python_floats pl k file m).1 loaded
  rw [Mesh.layout_length pl h1, Mesh.map_restSize, Mesh.map_dataSize]

/-- **C151.** And so has one that is saved. -/
theorem C151_saved {pl : Plat} {m : Mesh F64} {bs : Bytes} (counts : MeshWF m)
    (saved : exportMesh pl m = ⟨bs, none⟩) : bs.length = m.restSize pl + m.dataSize := by
  rw [((C58_export_writes_layout pl m counts bs).1 saved).2.2, Mesh.layout_length pl (counts.map packF),
    Mesh.map_restSize, Mesh.map_dataSize]

/-- The sample file: 414 bytes, then 500 floats and 36 indices. -/
example : (load (F := W) win staticKind evilBox).toOption.map (fun r => (r.restSize win, r.dataSize)) =
    some (414, 4 * 500 + 2 * 36) ∧ evilBox.length = 2486 := by decide +kernel

/-! ## What edits do to it -/

/-- One call that does not reorder. -/
theorem after_one [FArith F] [Libm F] (m : Mesh F) (c : EditCall F) : afterCalls m [c] = (c.run m).1 := by
  have h := congrArg Prod.fst (C134_history m [] c (by simp))
  have e : (runCalls EditCall.run m [c]).1 = (c.run m).1 := by
    simp only [runCalls]
  rw [← e]
  exact h

theorem restSize_of_info (pl : Plat) {m m' : Mesh F} (f : SameFormat m m')
    (h : m'.geoms.map Geom.info = m.geoms.map Geom.info) : m'.restSize pl = m.restSize pl := by
  have e : ∀ n : Mesh F, (n.geoms.map fun g => (g.info.2.map (LodInfo.size pl.cLong n.kind n.head.version)).sum) =
      (n.geoms.map Geom.info).map fun i => (i.2.map (LodInfo.size pl.cLong n.kind n.head.version)).sum := by
    intro n
    rw [List.map_map]
    rfl
  have hl := congrArg List.length h
  simp only [List.length_map] at hl
  unfold Mesh.restSize
  rw [e, e, h, hl, f.kind, f.head, f.vattrs]

/-- A geom is as long as its shape and its materials say. -/
theorem geom_size (n : Nat) (k : Kind) (v : Int) (g : Geom F) :
    (g.info.2.map (LodInfo.size n k v)).sum =
      (g.shape.2.map fun p => p.1.info.size n k v).sum +
        (g.mats.map fun a => a.info.size n (boxSize k v)).sum := by
  simp only [Geom.info, Geom.shape, Geom.mats, List.map_map]
  induction g.lods with
  | nil => rfl
  | cons l ls ih =>
    simp only [List.map_cons, List.sum_cons, List.flatMap_cons, List.map_append, List.sum_append, ih]
    have : l.info.size n k v = ({ l with materials := [] } : Lod F).info.size n k v +
        (l.materials.map fun a => a.info.size n (boxSize k v)).sum := by
      simp only [LodInfo.size, Lod.info, List.map_map, List.map_nil, List.sum_nil, Nat.add_zero]
      rfl
    simp only [Function.comp] at *
    omega

theorem kept_size {vs : Nat} {m m' : Mesh F} {g g' : Geom F} (h : GeomKept vs m m' g g') (n : Nat) (k : Kind)
    (v : Int) : (g'.info.2.map (LodInfo.size n k v)).sum = (g.info.2.map (LodInfo.size n k v)).sum := by
  have hm : (g'.mats.map fun a => a.info.size n (boxSize k v)) = g.mats.map fun a => a.info.size n (boxSize k v) := by
    have h1 := h.mats
    generalize g.mats = as at h1
    generalize g'.mats = bs at h1
    induction h1 with
    | nil => rfl
    | cons h1 _ ih =>
      rw [List.map_cons, List.map_cons, ih, h1.fields]
      rfl
  rw [geom_size, geom_size, h.shape, hm]

theorem orderly_bound {vs : Nat} {m : Mesh F64} (h : Orderly vs m) : (m.mats.map Mat.vnum).sum ≤ 2 ^ 53 := by
  have h1 := h.verts.total
  have h2 := h.verts.pos
  have h3 := h.size
  have h4 : 0 ≤ (m.mats.map Mat.vnum).sum := List.sum_nonneg fun x hx => by
    obtain ⟨a, ha, rfl⟩ := List.mem_map.1 hx
    exact h.verts.nonneg a ha
  have h5 : (m.mats.map Mat.vnum).sum * 1 ≤ (m.mats.map Mat.vnum).sum * vs :=
    mul_le_mul_of_nonneg_left (by exact_mod_cast h2) h4
  omega

theorem reorder_restSize (pl : Plat) {vs : Nat} {m : Mesh F64} (h : Orderly vs m) {order : List Int} {js : List Nat}
    (hp : Permutes m.geoms.length order js) : (changeGeomsOrder m order).1.restSize pl = m.restSize pl := by
  obtain ⟨ix, hix⟩ := h.many
  have hb := orderly_bound h
  obtain ⟨m', he, hm, hk, -⟩ := changeGeomsOrder_kept h.inside hix hb hp
  have hl : m'.geoms.length = m.geoms.length := by
    rw [← hk.length_eq]
    exact (permutes_picked hp).length_eq
  rw [he]
  have f : SameFormat m m' := by
    have := reorder_format m order
    rw [he] at this
    exact this
  unfold Mesh.restSize
  rw [hl, f.kind, f.head, f.vattrs]
  congr 1
  refine Eq.trans ?_ ((permutes_picked hp).map _).sum_eq
  generalize (js.filterMap fun j => m.geoms[j]?) = gs at hk
  generalize m'.geoms = gs' at hk
  congr 1
  clear hm he hp hl f hix
  induction hk with
  | nil => rfl
  | cons h1 _ ih =>
    rw [List.map_cons, List.map_cons, ih, kept_size h1]

section
variable [Libm F64]

theorem step_restSize (pl : Plat) {vs : Nat} {m m' : Mesh F64} (h : Orderly vs m) (s : Step m m') :
    m'.restSize pl = m.restSize pl := by
  have hf := (step_kept h s).2
  have one : ∀ c : EditCall F64, ¬ c.reorders → m' = (c.run m).1 → m'.restSize pl = m.restSize pl := by
    intro c hc he
    refine restSize_of_info pl hf ?_
    rw [he, ← after_one]
    exact C145_in_place m [c] (by simpa using hc)
  cases s with
  | translate d => exact one (.translate d) (fun h => h) (by simp only [EditCall.run]; unfold outcome; split <;> simp_all)
  | rotate r => exact one (.rotate r) (fun h => h) (by simp only [EditCall.run]; unfold outcome; split <;> simp_all)
  | update => exact one .update (fun h => h) (by simp only [EditCall.run]; unfold outcome; split <;> simp_all)
  | center g l b =>
    exact one (.center g l b) (fun h => h) (by simp only [EditCall.run]; unfold outcomePoint; split <;> simp_all)
  | reorder hp => exact reorder_restSize pl h hp
  | merge ho he hs =>
    rename_i o r
    exact one (.merge o) (fun h => h) (by simp only [EditCall.run, he]; unfold outcomeMerge; split <;> simp_all)
  | mergeSelf he hs =>
    exact one .mergeSelf (fun h => h) (by simp only [EditCall.run, he]; unfold outcomeMerge; split <;> simp_all)
  | saveLoad hs hl =>
    rw [C02_reload_of_export _ _ _ h.wf hs] at hl
    obtain rfl := Except.ok.inj hl
    exact Mesh.map_restSize pl _ m

/-- **C151.** Moving, turning, updating boxes and reordering keep the lengths of both arrays. -/
theorem C151_kept {vs : Nat} {m : Mesh F64} (h : Orderly vs m) :
    (∀ d, (translate m d).1.dataSize = m.dataSize) ∧ (∀ r, (rotate m r).1.dataSize = m.dataSize) ∧
      (updateBoundaries m).1.dataSize = m.dataSize ∧
      (∀ g l b, (getLodCenterOffset m g l b).1.dataSize = m.dataSize) ∧
      ∀ order js, Permutes m.geoms.length order js → (changeGeomsOrder m order).1.dataSize = m.dataSize := by
  have hu : (updateBoundaries m).1.dataSize = m.dataSize := by
    obtain ⟨gs, he, -⟩ := update_bounded m
    rw [he]
    rfl
  refine ⟨fun d => ?_, fun r => ?_, hu, fun g l b => ?_, fun order js hp => ?_⟩
  · obtain ⟨l, he, hl⟩ := translate_any h.verts d
    rw [he]
    simp only [Mesh.dataSize, hl]
  · by_cases hr : (rotate m r).2 = none
    · obtain ⟨l, he, hl, -⟩ := C26_rotate_vectors_only h.verts h.vectors r hr
      rw [he]
      simp only [Mesh.dataSize, hl]
    · rw [C26_rotate_atomic m r hr]
  · rcases center_mesh m g l b with he | he <;> rw [he]
    exact hu
  · obtain ⟨ix, hix⟩ := h.many
    obtain ⟨h1, h2⟩ := C30_lengths_kept h.verts h.index hix (orderly_bound h) hp
    simp only [Mesh.dataSize, h1, h2]

omit [Libm F64] in
/-- **C151.** Merging adds those of the other mesh. -/
theorem C151_merged {vs : Nat} {m o m' : Mesh F64} (h : Orderly vs m) (ho : Orderly vs o)
    (merged : merge m o = (m', .ok .done)) : m'.dataSize = m.dataSize + o.dataSize := by
  obtain ⟨ix, hix⟩ := h.many
  obtain ⟨ox, hox⟩ := ho.many
  obtain ⟨hc, -, hm⟩ := merge_done h.inside ho.inside hix hox merged
  obtain ⟨hv, hi⟩ := hm.tiled h.inside ho.inside
  have hsum : ∀ f : Mat F64 → Int, (∀ a b : Mat F64, f (addCounts a b) = f a + f b) →
      ((List.zipWith addCounts m.mats o.mats).map f).sum = (m.mats.map f).sum + (o.mats.map f).sum := by
    intro f hf
    have hlen := hc.mats_length
    generalize m.mats = as at hlen ⊢
    generalize o.mats = bs at hlen ⊢
    induction as generalizing bs with
    | nil => cases bs with
      | nil => rfl
      | cons b bs => simp at hlen
    | cons a as ih => cases bs with
      | nil => simp at hlen
      | cons b bs =>
        simp only [List.zipWith_cons_cons, List.map_cons, List.sum_cons, hf]
        rw [ih bs (by simpa using hlen)]
        omega
  have htv : (m'.vertices.length : Int) = m.vertices.length + o.vertices.length := by
    rw [hv.total, hm.mats, retile_vnum, hsum Mat.vnum fun _ _ => rfl, h.verts.total, ho.verts.total, Int.add_mul]
  have hti : (m'.index.elems.length : Int) = m.index.elems.length + o.index.elems.length := by
    rw [hi.total, hm.mats, retile_inum, hsum Mat.inum fun _ _ => rfl, h.index.total, ho.index.total]
  unfold Mesh.dataSize
  omega

theorem step_dataSize {vs : Nat} {m m' : Mesh F64} (h : Orderly vs m) (s : Step m m') :
    m.dataSize ≤ m'.dataSize := by
  obtain ⟨k1, k2, k3, k4, k5⟩ := C151_kept h
  have hmerge : ∀ {vs' : Nat} {o : Mesh F64} {r : MergeRet}, Orderly vs' o → merge m o = (m', .ok r) →
      m.dataSize ≤ m'.dataSize := by
    intro vs' o r ho he
    by_cases hc : Compatible m o
    · have hsz := ho.verts.size
      rw [← hc.vattrs] at hsz
      obtain rfl := vertexSize_unique h.verts.size hsz
      have hr : r = .done := by
        unfold merge at he
        rw [(canMerge_true m o).2 hc] at he
        simp only at he
        split at he
        · simp at he
        · unfold mergeFinish at he
          split at he
          · simp at he
          · exact (Except.ok.inj (Prod.mk.inj he).2).symm
      subst hr
      rw [C151_merged h ho he]
      omega
    · have := (C34_incompatible_untouched m o hc).1
      rw [he] at this
      exact (congrArg Mesh.dataSize this).ge
  cases s with
  | translate d => exact (k1 d).ge
  | rotate r => exact (k2 r).ge
  | update => exact k3.ge
  | center g l b => exact (k4 g l b).ge
  | reorder hp => exact (k5 _ _ hp).ge
  | merge ho he hs => exact hmerge ho he
  | mergeSelf he hs =>
    rw [C42_self_merge] at he
    exact hmerge h he
  | saveLoad hs hl =>
    rw [C02_reload_of_export _ _ _ h.wf hs] at hl
    obtain rfl := Except.ok.inj hl
    exact (Mesh.map_dataSize _ m).ge

/-- **C151.** A file in order, loaded, edited in any way and saved: it has changed its length by what vertices and
indices need more or less. -/
theorem C151_edited {pl : Plat} {k : Kind} {file out : Bytes} {vs : Nat} {m m' : Mesh F64}
    (loaded : load pl k file = .ok m) (h : Orderly vs m) (history : History m m')
    (saved : exportMesh pl m' = ⟨out, none⟩) : out.length + m.dataSize = file.length + m'.dataSize := by
  have hr : m'.restSize pl = m.restSize pl := by
    clear saved
    induction history with
    | refl => rfl
    | tail hist s ih => rw [step_restSize pl (C50_history_keeps_order h hist).1 s, ih]
  rw [C151_loaded loaded, C151_saved (C50_history_keeps_order h history).1.wf saved, hr]
  omega

/-- **C151.** It has not become shorter, and it has kept its length if the numbers of vertices and indices are the
same, as they are unless something was merged in (C145). -/
theorem C151_not_shorter {pl : Plat} {k : Kind} {file out : Bytes} {vs : Nat} {m m' : Mesh F64}
    (loaded : load pl k file = .ok m) (h : Orderly vs m) (history : History m m')
    (saved : exportMesh pl m' = ⟨out, none⟩) : file.length ≤ out.length ∧
      (m'.vertnum = m.vertnum → m'.indexnum = m.indexnum → out.length = file.length) := by
  have h1 := C151_edited loaded h history saved
  have h2 : m.dataSize ≤ m'.dataSize := by
    clear h1 saved
    induction history with
    | refl => exact le_rfl
    | tail hist s ih => exact ih.trans (step_dataSize (C50_history_keeps_order h hist).1 s)
  refine ⟨by omega, fun hv hi => ?_⟩
  have h' := (C50_history_keeps_order h history).1
  have e1 : m'.vertices.length = m.vertices.length := by
    have := h'.count
    rw [hv, ← h.count] at this
    exact_mod_cast this
  have e2 : m'.index.elems.length = m.index.elems.length := by
    obtain ⟨ix, hix⟩ := h.many
    obtain ⟨ix', hix'⟩ := h'.many
    have a := h.wf.index
    have b := h'.wf.index
    rw [hix] at a ⊢
    rw [hix'] at b ⊢
    exact b.2.2.trans (hi ▸ a.2.2.symm)
  unfold Mesh.dataSize at h1
  rw [e1, e2] at h1
  omega

end

section
attribute [local instance] quarterTurn

/-- Read from a file, moved, turned, geoms swapped and merged with itself: 108 more bytes, for three vertices of
eight floats and six indices. -/
example : ∃ file out, load win staticKind file = .ok (twoGeoms ((List.range 24).map flt)) ∧
    Orderly 8 (twoGeoms ((List.range 24).map flt)) ∧ History (twoGeoms ((List.range 24).map flt)) edited ∧
    exportMesh win edited = ⟨out, none⟩ ∧ out.length = file.length + 108 := by
  have he : (exportMesh win (twoGeoms ((List.range 24).map flt))).err = none := by decide +kernel
  have hs : exportMesh win (twoGeoms ((List.range 24).map flt)) =
      ⟨(exportMesh win (twoGeoms ((List.range 24).map flt))).bytes, none⟩ := by rw [← he]
  have h2 : (exportMesh win edited).err = none := by decide +kernel
  have ho := twoGeoms_orderly ((List.range 24).map flt) (by decide)
  have hl := C02_reload_of_export win _ _ ho.wf hs
  have hm : (twoGeoms ((List.range 24).map flt)).map (fun x => unpackF (packF x)) =
      twoGeoms ((List.range 24).map flt) := by decide +kernel
  exact ⟨_, (exportMesh win edited).bytes, hl.trans (congrArg _ hm), ho, edited_history, by rw [← h2],
    by decide +kernel⟩

end

end Bf2
