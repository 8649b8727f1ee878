import Verif.OldByteSpec
import Verif.ByteLemmas
import Verif.OldOrderLemmas
import Verif.OldSizeLemmas

/-!
# Lemmas on the bytes of files of the deprecated module
-/

namespace Bf2

variable {F : Type}

theorem OldWF.shown_mask {pl : Plat} {o : OldMesh F} (h : OldWF o) (slot : Nat → Bool) (box : Bool) :
    o.shown.mask pl slot box = o.mask pl slot box := by
  have hn : ∀ g ∈ o.geoms, ∀ l ∈ g.lods, l.shown.nodeMask pl o.kind box = l.nodeMask pl o.kind box := by
    intro g hg l hl
    have hw := (h.lod g hg l hl).nodes
    unfold Lod.nodeMask OldLod.nodeMask OldLod.shown
    simp only []
    congr 2
    rcases hs : o.kind.isSkinned with _ | _
    · simp only [Bool.false_eq_true, if_false]
      rcases hb : o.kind.isBundled with _ | _
      · rw [hb] at hw
        rcases hnn : l.nodes with _ | n
        · rw [hnn] at hw
          simp only [Option.isSome_none, Bool.not_false, Bool.true_and] at hw
          have := of_decide_eq_false hw.symm
          simp only [List.length_nil, Bool.false_eq_true, if_false]
          omega
        · simp
      · rw [hb] at hw
        rcases hnn : l.nodes with _ | n
        · simp
        · rw [hnn] at hw; simp at hw
    · simp
  have e1 : o.shown.geoms.flatMap (fun g => g.lods.flatMap (Lod.nodeMask pl o.kind box)) =
      o.geoms.flatMap (fun g => g.lods.flatMap (OldLod.nodeMask pl o.kind box)) := by
    unfold OldMesh.shown
    rw [List.flatMap_map]
    refine List.flatMap_congr fun g hg => ?_
    unfold OldGeom.shown
    rw [List.flatMap_map]
    exact List.flatMap_congr fun l hl => hn g hg l hl
  have e2 : o.shown.geoms.flatMap (fun g => g.lods.flatMap (Lod.matMask pl o.kind o.head.version box)) =
      o.geoms.flatMap (fun g => g.lods.flatMap (OldLod.matMask pl o.kind o.head.version box)) := by
    unfold OldMesh.shown
    rw [List.flatMap_map]
    refine List.flatMap_congr fun g hg => ?_
    unfold OldGeom.shown
    rw [List.flatMap_map]
    rfl
  have e3 : o.shown.vertexStart pl = o.vertexStart pl := by
    simp [Mesh.vertexStart, OldMesh.vertexStart, OldMesh.shown]
  have e4 : o.shown.index.elems.length = o.index.length := by
    show (shownIndex o.index).elems.length = _
    rw [shownIndex_elems]
  unfold Mesh.mask
  rw [e3, e4]
  have hk : o.shown.kind = o.kind := rfl
  have hh : o.shown.head = o.head := rfl
  have hv : o.shown.vertices = o.vertices := rfl
  rw [hk, hh, hv, e1, e2]
  rfl

/-- What is saved, as a list of items. -/
theorem oldSave_layout {pl : Plat} {o : OldMesh F64} (h : OldWF o) (hr : OldInRange pl o) :
    oldSave pl o = ⟨layout pl (o.shown.map packF).items, none⟩ := by
  have e : oldSave pl o = fileBytes pl (o.shown.map packF) := by
    rw [oldSave_shows (h.shows hr.vattrs), oldSave_old h.shown hr.shown, exportMesh_map, ← fileBytes_elems,
      OldMesh.shown_nodes]
    rfl
  have hw : MeshWF (o.shown.map packF) := h.shown.map _
  have hn : (fileBytes pl (o.shown.map packF)).err = none := (fileBytes_err hw).2 (hr.shown.map _)
  have hx : fileBytes pl (o.shown.map packF) = ⟨(fileBytes pl (o.shown.map packF)).bytes, none⟩ :=
    Out.ext' rfl hn
  have := ((fileBytes_writes hw _).1 hx).2
  rw [e, hx, this]

/-- Two mesh objects that differ in vertex floats and boxes only. -/
structure OldBoxes (slot : Nat → Bool) (box : Bool) (o o' : OldMesh F) : Prop where
  fields : o' = { o with vertices := o'.vertices, vertsList := o'.vertsList, geoms := o'.geoms }
  length : o'.vertices.length = o.vertices.length
  floats : ∀ i, slot i = false → o'.vertices[i]? = o.vertices[i]?
  geoms : List.Forall₂ (fun g g' : OldGeom F => g'.lodnum = g.lodnum ∧
    List.Forall₂ (fun l l' : OldLod F => l' = { l with min := l'.min, max := l'.max, materials := l'.materials } ∧
      (box = false → l' = l) ∧ List.Forall₂ (MatBox box) l.materials l'.materials) g.lods g'.lods) o.geoms o'.geoms

theorem OldBoxes.shown {slot : Nat → Bool} {box : Bool} {o o' : OldMesh F} (h : OldBoxes slot box o o') :
    MeshBox slot box o.shown o'.shown := by
  have hf := h.fields
  refine ⟨?_, h.length, h.floats, ?_⟩
  · generalize o'.vertices = p at hf
    generalize o'.geoms = q at hf
    generalize o'.vertsList = r at hf
    subst hf
    rfl
  · show List.Forall₂ _ (o.geoms.map _) (o'.geoms.map _)
    rw [List.forall₂_map_left_iff, List.forall₂_map_right_iff]
    refine h.geoms.imp fun g g' hg => ⟨?_, ?_⟩
    · show (⟨g'.lodnum, _⟩ : Geom F) = ⟨g.lodnum, _⟩
      rw [hg.1]
      rfl
    · show List.Forall₂ _ (g.lods.map _) (g'.lods.map _)
      rw [List.forall₂_map_left_iff, List.forall₂_map_right_iff]
      refine hg.2.imp fun l l' hl => ⟨?_, fun hb => ?_, hl.2.2⟩
      · have := hl.1
        generalize l'.min = p at this
        generalize l'.max = q at this
        generalize l'.materials = r at this
        subst this
        rfl
      · rw [hl.2.1 hb]; exact ⟨rfl, rfl⟩

theorem OldBoxes.bytes {pl : Plat} {slot : Nat → Bool} {box : Bool} {o o' : OldMesh F64}
    (h : OldBoxes slot box o o') (wf : OldWF o) (wf' : OldWF o') (range' : OldInRange pl o') {out : Bytes}
    (saved : oldSave pl o = ⟨out, none⟩) :
    oldSave pl o' = ⟨layout pl (o'.shown.map packF).items, none⟩ ∧
      SameOutside (o.mask pl slot box) out (layout pl (o'.shown.map packF).items) := by
  refine ⟨oldSave_layout wf' range', ?_⟩
  have e := oldSave_layout (pl := pl) wf (wf.save_err.1 (by rw [saved]))
  rw [saved] at e
  cases e
  have := (h.shown.map packF).bytes (pl := pl) (wf.shown.map packF) (wf'.shown.map packF)
  rw [Mesh.mask_map, wf.shown_mask] at this
  exact this

/-- Bounds that grew are other boxes. -/
theorem grown_boxes [FArith F] {vs p : Nat} {slot : Nat → Bool} {m : OldMesh F} {l : List F} {b : Bool}
    {gs : List (OldGeom F)} (hlen : l.length = m.vertices.length)
    (h : ∀ i, slot i = false → l[i]? = m.vertices[i]?)
    (hg : BoundsGrown vs p { m with vertices := l, vertsList := b } gs) :
    OldBoxes slot true m { m with vertices := l, vertsList := b, geoms := gs } := by
  refine ⟨rfl, hlen, h, List.Forall₂.imp (fun g g' e => ⟨e.1, e.2.imp fun a a' hl => ⟨?_, fun hb => (by cases hb), ?_⟩⟩) hg⟩
  · have := hl.rest
    rcases a with ⟨min, max, pivot, rignum, rigs, nodenum, nodes, matnum, materials, poly⟩
    rcases a' with ⟨min', max', pivot', rignum', rigs', nodenum', nodes', matnum', materials', poly'⟩
    simp_all
  · refine hl.mats.imp ?_
    rintro a a' ⟨_, _, mn', mx', -, -, rfl, -⟩
    exact ⟨rfl, fun hb => (by cases hb)⟩

/-- The file up to a name and from it on is the same. -/
def OneText (pl : Plat) (s s' : Bytes) (x y : Bytes) : Prop :=
  ∃ p q, x = p ++ nameBytes pl s ++ q ∧ y = p ++ nameBytes pl s' ++ q

theorem OneText.append {pl : Plat} {s s' x y : Bytes} (h : OneText pl s s' x y) (a b : Bytes) :
    OneText pl s s' (a ++ x ++ b) (a ++ y ++ b) := by
  obtain ⟨p, q, rfl, rfl⟩ := h
  exact ⟨a ++ p, q ++ b, by simp, by simp⟩

theorem OneText.flatMap {α : Type} {pl : Plat} {s s' : Bytes} (f : α → Bytes) {l : List α} {i : Nat} {a b : α}
    (ha : l[i]? = some a) (h : OneText pl s s' (f a) (f b)) :
    OneText pl s s' (l.flatMap f) ((l.set i b).flatMap f) := by
  obtain ⟨hi, rfl⟩ := List.getElem?_eq_some_iff.1 ha
  have e1 : l = l.take i ++ l[i] :: l.drop (i + 1) := by simp
  have e2 : l.set i b = l.take i ++ b :: l.drop (i + 1) := by
    rw [List.set_eq_take_append_cons_drop, if_pos hi]
  have := h.append ((l.take i).flatMap f) ((l.drop (i + 1)).flatMap f)
  rw [e2]
  conv in (List.flatMap f l) => rw [e1]
  simp only [List.flatMap_append, List.flatMap_cons] at this ⊢
  simpa only [List.append_assoc] using this

theorem flatMap_set_same {α β : Type} (f : α → List β) {l : List α} {i : Nat} {a b : α} (ha : l[i]? = some a)
    (h : f b = f a) : (l.set i b).flatMap f = l.flatMap f := by
  obtain ⟨hi, rfl⟩ := List.getElem?_eq_some_iff.1 ha
  have e1 : l = l.take i ++ l[i] :: l.drop (i + 1) := by simp
  have e2 : l.set i b = l.take i ++ b :: l.drop (i + 1) := by
    rw [List.set_eq_take_append_cons_drop, if_pos hi]
  rw [e2]
  conv_rhs => rw [e1]
  simp only [List.flatMap_append, List.flatMap_cons, h]

theorem map_set_same {α β : Type} (f : α → β) {l : List α} {i : Nat} {a b : α} (ha : l[i]? = some a)
    (h : f b = f a) : (l.set i b).map f = l.map f := by
  rw [List.map_set, h]
  refine List.ext_getElem? fun j => ?_
  rw [List.getElem?_set]
  split
  · next hij =>
    subst hij
    simp only [List.length_map, List.getElem?_map, ha, Option.map_some]
    rw [if_pos (List.getElem?_eq_some_iff.1 ha).1]
  · rfl

/-- What a new name for a map does to what is written. -/
theorem renamed_text (pl : Plat) (m : OldMesh F64) {i j k q : Nat} {g : OldGeom F64} {l : OldLod F64} {a : Mat F64}
    {old : Bytes} (new : Bytes) (hg : m.geoms[i]? = some g) (hl : g.lods[j]? = some l)
    (ha : l.materials[k]? = some a) (hold : a.maps[q]? = some old) :
    OneText pl old new (layout pl (m.shown.map packF).items)
      (layout pl (({ m with geoms := m.geoms.set i { g with
        lods := g.lods.set j { l with materials := l.materials.set k { a with
          maps := a.maps.set q new } } } } : OldMesh F64).shown.map packF).items) := by
  have ht : OneText pl old new (layout pl (a.maps.map .text)) (layout pl ((a.maps.set q new).map .text)) := by
    have hf : ∀ x : List Bytes, layout pl (x.map .text) = x.flatMap (nameBytes pl) := by
      intro x
      induction x with
      | nil => rfl
      | cons b x ih => rw [List.map_cons, layout_cons, ih, List.flatMap_cons]; rfl
    rw [hf, hf]
    exact OneText.flatMap (nameBytes pl) hold ⟨[], [], by simp, by simp⟩
  have hm : OneText pl old new (layout pl (a.map packF).items)
      (layout pl (Mat.map packF { a with maps := a.maps.set q new }).items) := by
    have := ht.append
      (layout pl (optItems (fun a => [.long a]) a.alphamode ++ [.text a.fxfile, .text a.technique, .long a.mapnum]))
      (layout pl ([.long a.vstart, .long a.istart, .long a.inum, .long a.vnum, .long a.u4, .long a.u5] ++
        optItems Vec3.items (a.map packF).mmin ++ optItems Vec3.items (a.map packF).mmax))
    simpa only [Mat.items, Mat.map, layout_append, List.append_assoc] using this
  have hlod : OneText pl old new (layout pl (l.shown.map packF).matItems)
      (layout pl ((OldLod.shown { l with materials := l.materials.set k { a with
          maps := a.maps.set q new } }).map packF).matItems) := by
    have h1 := OneText.flatMap (fun a : Mat F64 => layout pl (a.map packF).items) ha hm
    have h2 := h1.append (layout pl [.long l.matnum]) []
    have hf : ∀ x : OldLod F64, layout pl (x.shown.map packF).matItems = layout pl [.long x.matnum] ++
        (x.materials.flatMap fun a : Mat F64 => layout pl (a.map packF).items) ++ [] := by
      intro x
      rw [List.append_nil, ← layout_flat, ← layout_append]
      simp only [Lod.matItems, Lod.map, OldLod.shown, List.flatMap_map]
      rfl
    rw [hf, hf]
    exact h2
  have hgeom := OneText.flatMap (fun l : OldLod F64 => layout pl (l.shown.map packF).matItems) hl hlod
  have hmats := OneText.flatMap (fun g : OldGeom F64 =>
    g.lods.flatMap fun l : OldLod F64 => layout pl (l.shown.map packF).matItems)
    (b := { g with lods := g.lods.set j { l with materials := l.materials.set k { a with
          maps := a.maps.set q new } } }) hg hgeom
  have hsplit : ∀ x : OldMesh F64, layout pl (x.shown.map packF).items =
      (layout pl (x.shown.map packF).preamble.items ++ layout pl ((x.shown.map packF).vertices.map .word) ++
        layout pl (x.shown.map packF).middle ++
        (x.geoms.flatMap fun g => g.lods.flatMap fun l => layout pl ((l.shown.map packF).nodeItems x.kind))) ++
      (x.geoms.flatMap fun g => g.lods.flatMap fun l => layout pl (l.shown.map packF).matItems) ++ [] := by
    intro x
    rw [items_split, List.append_nil]
    have hgen : ∀ f : Lod W → Bytes, ((x.shown.map packF).geoms.flatMap fun g => g.lods.flatMap f) =
        x.geoms.flatMap fun g => g.lods.flatMap fun l => f (l.shown.map packF) := by
      intro f
      show ((x.geoms.map OldGeom.shown).map (Geom.map packF)).flatMap _ = _
      rw [List.flatMap_map, List.flatMap_map]
      refine List.flatMap_congr fun g _ => ?_
      show ((g.lods.map OldLod.shown).map (Lod.map packF)).flatMap _ = _
      rw [List.flatMap_map, List.flatMap_map]
    rw [hgen, hgen]
    rfl
  rw [hsplit, hsplit]
  have hnodes := flatMap_set_same (fun g : OldGeom F64 =>
    g.lods.flatMap fun l : OldLod F64 => layout pl ((l.shown.map packF).nodeItems m.kind))
    (b := { g with lods := g.lods.set j { l with materials := l.materials.set k { a with
          maps := a.maps.set q new } } }) hg (flatMap_set_same _ hl rfl)
  have hpre : (OldMesh.shown { m with geoms := m.geoms.set i { g with
        lods := g.lods.set j { l with materials := l.materials.set k { a with
          maps := a.maps.set q new } } } }).preamble = m.shown.preamble := by
    have := map_set_same OldGeom.lodnum (b := { g with
        lods := g.lods.set j { l with materials := l.materials.set k { a with
          maps := a.maps.set q new } } }) hg rfl
    simp only [Mesh.preamble, OldMesh.shown, List.map_map]
    have hc : ((fun g : Geom F64 => g.lodnum) ∘ OldGeom.shown) = OldGeom.lodnum := rfl
    rw [hc, this]
  have hpp : ∀ x : Mesh F64, (x.map packF).preamble = x.preamble := by
    intro x
    simp only [Mesh.preamble, Mesh.map, List.map_map]
    rfl
  simp only [] at hnodes ⊢
  rw [hnodes, hpp, hpp, hpre]
  exact hmats.append _ _

theorem OldInRange.renamed {pl : Plat} {m : OldMesh F} (hr : OldInRange pl m) {i j k q : Nat} {g : OldGeom F}
    {l : OldLod F} {a : Mat F} {path : Bytes} (short : IsLong pl path.length) (hg : m.geoms[i]? = some g)
    (hl : g.lods[j]? = some l) (ha : l.materials[k]? = some a) :
    OldInRange pl { m with geoms := m.geoms.set i { g with
        lods := g.lods.set j { l with materials := l.materials.set k { a with
          maps := a.maps.set q path } } } } := by
  have hgm := List.mem_of_getElem? hg
  have hlr := hr.lods g hgm l (List.mem_of_getElem? hl)
  have har := hlr.mats a (List.mem_of_getElem? ha)
  refine ⟨hr.head_u1, hr.version, hr.head_u3, hr.head_u4, hr.head_u5, hr.u1, hr.geomnum, ?_, hr.vertattribnum,
      hr.vattrs, hr.vertformat, hr.vertstride, hr.vertnum, hr.indexnum, hr.index, hr.u2, ?_⟩
  · intro g' hg'
    rcases List.mem_or_eq_of_mem_set hg' with h | rfl
    · exact hr.lodnum g' h
    · exact hr.lodnum g hgm
  · intro g' hg' l' hl'
    rcases List.mem_or_eq_of_mem_set hg' with h | rfl
    · exact hr.lods g' h l' hl'
    · rcases List.mem_or_eq_of_mem_set hl' with h | rfl
      · exact hr.lods g hgm l' h
      · refine ⟨hlr.rignum, hlr.bonenum, hlr.boneid, hlr.nodenum, hlr.matnum, fun a' ha' => ?_⟩
        rcases List.mem_or_eq_of_mem_set ha' with h | rfl
        · exact hlr.mats a' h
        · refine ⟨har.alphamode, har.fxfile, har.technique, har.mapnum, fun s hs => ?_, har.vstart, har.istart,
            har.inum, har.vnum, har.u4, har.u5⟩
          rcases List.mem_or_eq_of_mem_set hs with h | rfl
          · exact har.maps s h
          · exact short

end Bf2
