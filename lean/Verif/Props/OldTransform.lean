import Verif.OldTransformLemmas
import Verif.Props.OldMerge

/-!
# `VisMeshTransform` of `/repo/deprecated/modmesh.py`: C94 - C98

Theorems about saving start from a file the package loads as `m`; the deprecated module loads it as
`m.old` (C83).
-/

namespace Bf2

variable {F : Type}

/-- Two materials of two and one vertices, as a file holds them. -/
def joinPlain : Mesh F64 :=
  meshOf (flt 0) posAttrs 16 3 [[(0, 2, 0, 3)], [(2, 1, 3, 3)]] upto12 [0, 1, 1, 0, 0, 0]

theorem joinA_tiled : OldTiled joinA.old where
  nonneg := by decide +kernel
  start := by
    rintro (_ | _ | i) a ha
    · cases ha; rfl
    · cases ha; rfl
    · have : joinA.old.mats.length = 2 := rfl
      rw [List.getElem?_eq_none (by omega)] at ha
      cases ha
  total := by decide +kernel

/-! ## C94: order_geoms_by -/

/-- The geoms are picked in the given order, negative ids count from the end; nothing else changes. -/
theorem C94_order_geoms (m : OldMesh F) {order : List Int} {js : List Nat}
    (names : List.Forall₂ (Names m.geoms.length) order js) :
    ∃ gs, PickedAt m.geoms js gs ∧ orderGeomsBy m order = ({ m with geoms := gs }, none) := by
  obtain ⟨gs, hgs⟩ := PickedAt.exists (names_lt names)
  exact ⟨gs, hgs, orderGeomsBy_ok names hgs⟩

/-- An id that names no geom makes an `IndexError`, and nothing is changed. -/
theorem C94_bad_id (m : OldMesh F) {order : List Int} {id : Int} (mem : id ∈ order)
    (bad : ∀ j, ¬ Names m.geoms.length id j) : orderGeomsBy m order = (m, some .indexError) :=
  orderGeomsBy_bad mem bad

/-- An order as long as the list of geoms, on a mesh just loaded: saving succeeds, and the file
loads as the mesh with the geoms picked; vertices and indices stay where they are. -/
theorem C94_save_reload (pl : Plat) (k : Kind) (file : Bytes) (m : Mesh F64)
    (hm : load pl k file = .ok m) {order : List Int} {js : List Nat}
    (names : List.Forall₂ (Names m.geoms.length) order js) (len : order.length = m.geoms.length) :
    ∃ gs out, PickedAt m.geoms js gs ∧ oldSave pl (orderGeomsBy m.old order).1 = ⟨out, none⟩ ∧
      load pl k out =
        .ok (({ m with geoms := gs } : Mesh F64).lastNodes.map fun x => unpackF (packF x)) := by
  obtain ⟨hw, rfl⟩ := C06_loaded_wf pl k file m hm
  have hr := C07_integers_in_range pl _ file m hm
  have hl : m.old.geoms.length = m.geoms.length := oldGeoms_length
  obtain ⟨gs0, hp, he⟩ := C94_order_geoms m.old (by rw [hl]; exact names)
  obtain ⟨gs, hgs⟩ := PickedAt.exists (names_lt names)
  have hsame : gs0.map OldGeom.plain = gs.map (Geom.old0 m.kind) := by
    have h1 := hp.map OldGeom.plain
    have h2 : m.old.geoms.map OldGeom.plain = m.geoms.map (Geom.old0 m.kind) := oldGeoms_plain _ _ _
    rw [h2] at h1
    exact h1.unique (hgs.map _)
  have hlen : gs.length = m.geomnum.toNat := by
    rw [← hw.geoms, ← len, names.length_eq]
    exact hgs.length_eq.symm
  obtain ⟨out, h1, h2⟩ := shows_save (shows_geoms hsame m.geomnum)
    (hw.pick (fun g hg => hgs.mem hg) hlen) (hr.pick (fun g hg => hgs.mem hg) hr.geomnum)
  exact ⟨gs, out, hgs, by rw [he]; exact h1, h2⟩

/-- With fewer ids than geoms, saving raises `IndexError`, and the file that is left does not load. -/
theorem C94_short_order (pl : Plat) (k : Kind) (file : Bytes) (m : Mesh F64)
    (hm : load pl k file = .ok m) {order : List Int} {js : List Nat}
    (names : List.Forall₂ (Names m.geoms.length) order js) (len : order.length < m.geoms.length) :
    (orderGeomsBy m.old order).2 = none ∧
      (oldSave pl (orderGeomsBy m.old order).1).err = some .indexError ∧
      load (F := F64) pl k (oldSave pl (orderGeomsBy m.old order).1).bytes = .error .structError := by
  have hl : m.old.geoms.length = m.geoms.length := oldGeoms_length
  have zero : Names m.geoms.length 0 0 := ⟨by omega, .inl rfl⟩
  have zeros : ∀ n, List.Forall₂ (Names m.geoms.length) (List.replicate n 0) (List.replicate n 0) := by
    intro n
    induction n with
    | zero => exact .nil
    | succ n ih => exact .cons zero ih
  obtain ⟨gs0, hp, he⟩ := C94_order_geoms m.old (by rw [hl]; exact names)
  obtain ⟨more, hp', -⟩ := C94_order_geoms m.old
    (by rw [hl]; exact zeros (m.geoms.length - order.length))
  have all := List.rel_append names (zeros (m.geoms.length - order.length))
  obtain ⟨_, out, -, ho, hload⟩ := C94_save_reload pl k file m hm all (by simp; omega)
  have he' := orderGeomsBy_ok (m := m.old) (by rw [hl]; exact all) (List.rel_append hp hp')
  rw [he'] at ho
  have h1 := hp.length_eq
  have h2 := names.length_eq
  have h3 := hp'.length_eq
  rw [List.length_replicate] at h3
  obtain ⟨hw, rfl⟩ := C06_loaded_wf pl k file m hm
  obtain ⟨hi, tail, ht, rfl⟩ := oldSave_cut (pl := pl) (o := { m.old with geoms := gs0 }) (more := more)
    (by show gs0.length + more.length = m.geomnum.toNat; rw [← hw.geoms]; omega)
    (by rintro rfl; simp at h3; omega) ho
  rw [he]
  exact ⟨rfl, hi, C05_truncation_rejected pl _ _ tail _ hload ht⟩

/-- Translating after a reorder writes the vertices in the new order of the materials, but the
materials keep their old ranges: a translation by 0 gives them other vertices. -/
theorem C94_then_translate_shuffles : ∃ (m : OldMesh F64) (order : List Int) (a : Mat F64),
    Packed 4 m ∧ OldTiled m ∧ HasBounds m ∧ (orderGeomsBy m order).2 = none ∧
    (oldTranslate (orderGeomsBy m order).1 [flt 0, flt 0, flt 0]).2 = none ∧ a ∈ m.mats ∧
    a ∈ (oldTranslate (orderGeomsBy m order).1 [flt 0, flt 0, flt 0]).1.mats.map
      (fun b => { b with mmin := a.mmin, mmax := a.mmax }) ∧
    (oldTranslate (orderGeomsBy m order).1 [flt 0, flt 0, flt 0]).1.vdata 4 a ≠ m.vdata 4 a :=
  ⟨joinA.old, [1, 0], { matOf (F := F64) (0, 2, 0, 3) with
      mmin := some ⟨flt 0, flt 0, flt 0⟩, mmax := some ⟨flt 0, flt 0, flt 0⟩ },
    ⟨posTable, rfl⟩, joinA_tiled, joinA_bounds, by decide +kernel, by decide +kernel,
    by decide +kernel, by decide +kernel, by decide +kernel⟩

/-- The file of a mesh with two geoms. -/
def twoFile : Bytes := (exportMesh win joinPlain).bytes

example : load (F := F64) win staticKind twoFile = .ok joinPlain ∧
    List.Forall₂ (Names joinPlain.geoms.length) [-1, 0] [1, 0] ∧
    [(-1 : Int), 0].length = joinPlain.geoms.length ∧
    (load (F := F64) win staticKind (oldSave win (orderGeomsBy joinPlain.old [-1, 0]).1).bytes).toOption.map
      (fun m => (m.geoms.map fun g => g.mats.map (·.vstart), m.vertices)) =
      some ([[2], [0]], upto12) ∧
    (oldSave win (orderGeomsBy joinPlain.old [0]).1).err = some .indexError ∧
    (∀ j, ¬ Names joinPlain.old.geoms.length 2 j) ∧
    (orderGeomsBy joinPlain.old [0, 2]).2 = some .indexError :=
  ⟨by decide +kernel, .cons ⟨by decide, .inr (by decide)⟩ (.cons ⟨by decide, .inl rfl⟩ .nil), rfl,
    by decide +kernel, by decide +kernel, by
      intro j h
      have : joinPlain.old.geoms.length = 2 := rfl
      rw [this] at h
      obtain ⟨h1, h2⟩ := h
      omega, by decide +kernel⟩

/-- An order longer than the list of geoms is saved, but the file has bytes too many. -/
example : (oldSave win (orderGeomsBy joinPlain.old [0, 1, 0]).1).err = none ∧
    (load (F := F64) win staticKind (oldSave win (orderGeomsBy joinPlain.old [0, 1, 0]).1).bytes).isOk =
      false := by
  decide +kernel

/-! ## C95: copy_geom_id -/

/-- A copy of the geom is inserted where `insert` would put it, and `geomnum` counts it. -/
theorem C95_copy_geom (m : OldMesh F) {idCopy idNew : Int} {j p : Nat} {g : OldGeom F}
    (copy : Names m.geoms.length idCopy j) (hg : m.geoms[j]? = some g)
    (new : InsertsAt m.geoms.length idNew p) :
    copyGeomId m idCopy idNew =
      ({ m with geomnum := m.geomnum + 1, geoms := insertedAt m.geoms p g }, none) := by
  unfold copyGeomId
  simp only [pyGet_names copy, hg, pyInsert_eq, new.clamp_eq]
  rfl

/-- On a mesh just loaded: saving succeeds, and the file loads as the mesh with the copy inserted. -/
theorem C95_save_reload (pl : Plat) (k : Kind) (file : Bytes) (m : Mesh F64)
    (hm : load pl k file = .ok m) {idCopy idNew : Int} {j p : Nat} {g : Geom F64}
    (copy : Names m.geoms.length idCopy j) (hg : m.geoms[j]? = some g)
    (new : InsertsAt m.geoms.length idNew p) (long : IsLong pl (m.geomnum + 1)) :
    ∃ out, oldSave pl (copyGeomId m.old idCopy idNew).1 = ⟨out, none⟩ ∧
      load pl k out = .ok (({ m with
        geomnum := m.geomnum + 1, geoms := insertedAt m.geoms p g } : Mesh F64).lastNodes.map
          fun x => unpackF (packF x)) := by
  obtain ⟨hw, rfl⟩ := C06_loaded_wf pl k file m hm
  have hr := C07_integers_in_range pl _ file m hm
  have hl : m.old.geoms.length = m.geoms.length := oldGeoms_length
  have h2 : m.old.geoms.map OldGeom.plain = m.geoms.map (Geom.old0 m.kind) := oldGeoms_plain _ _ _
  have hj : j < m.old.geoms.length := by rw [hl]; exact copy.1
  have hg0 := List.getElem?_eq_getElem hj
  have e := C95_copy_geom m.old (by rw [hl]; exact copy) hg0 (by rw [hl]; exact new)
  have hsame : (insertedAt m.old.geoms p m.old.geoms[j]).map OldGeom.plain =
      (insertedAt m.geoms p g).map (Geom.old0 m.kind) := by
    have h3 : OldGeom.plain m.old.geoms[j] = Geom.old0 m.kind g := by
      have := congrArg (fun l => l[j]?) h2
      simp only [List.getElem?_map, hg0, hg, Option.map_some] at this
      injection this
    unfold insertedAt
    simp only [List.map_append, List.map_take, List.map_cons, List.map_drop, h2, h3]
  have hmem : ∀ x ∈ insertedAt m.geoms p g, x ∈ m.geoms := by
    intro x hx
    unfold insertedAt at hx
    rcases List.mem_append.1 hx with hx | hx
    · exact List.mem_of_mem_take hx
    · rcases List.mem_cons.1 hx with rfl | hx
      · exact List.mem_of_getElem? hg
      · exact List.mem_of_mem_drop hx
  have hlen : (insertedAt m.geoms p g).length = (m.geomnum + 1).toNat := by
    have h4 := hw.geoms
    have h5 := copy.1
    have h6 := new.le
    unfold insertedAt
    simp only [List.length_append, List.length_take, List.length_cons, List.length_drop]
    omega
  obtain ⟨out, h5, h6⟩ := shows_save (shows_geoms hsame (m.geomnum + 1)) (hw.pick hmem hlen)
    (hr.pick hmem long)
  refine ⟨out, ?_, h6⟩
  rw [e]
  exact h5

/-- An id that names no geom makes an `IndexError` after `geomnum` was increased; such a mesh, if it
was loaded, can no longer be saved. -/
theorem C95_bad_id (m : OldMesh F) {idCopy idNew : Int} (bad : ∀ j, ¬ Names m.geoms.length idCopy j) :
    copyGeomId m idCopy idNew = ({ m with geomnum := m.geomnum + 1 }, some .indexError) := by
  unfold copyGeomId
  rw [pyGet_bad bad]

theorem C95_bad_id_unsavable [FCodec F] (pl : Plat) (k : Kind) (file : Bytes) (m : Mesh F)
    (hm : load pl k file = .ok m) {idCopy idNew : Int} (bad : ∀ j, ¬ Names m.geoms.length idCopy j)
    (nonneg : 0 ≤ m.geomnum) : (oldSave pl (copyGeomId m.old idCopy idNew).1).err ≠ none := by
  obtain ⟨hw, rfl⟩ := C06_loaded_wf pl k file m hm
  have hl : m.old.geoms.length = m.geoms.length := oldGeoms_length
  rw [C95_bad_id m.old (by rw [hl]; exact bad)]
  refine oldSave_short ?_
  show m.old.geoms.length < (m.geomnum + 1).toNat
  have := hw.geoms
  omega

/-- Saving it raises `IndexError`, as long as the larger number fits its field, and leaves a file that does not
load. -/
theorem C95_bad_id_file_lost (pl : Plat) (k : Kind) (file : Bytes) (m : Mesh F64)
    (hm : load pl k file = .ok m) {idCopy idNew : Int} (bad : ∀ j, ¬ Names m.geoms.length idCopy j)
    (nonneg : 0 ≤ m.geomnum) (long : IsLong pl (m.geomnum + 1)) :
    (oldSave pl (copyGeomId m.old idCopy idNew).1).err = some .indexError ∧
      load (F := F64) pl k (oldSave pl (copyGeomId m.old idCopy idNew).1).bytes = .error .structError := by
  obtain ⟨hw, rfl⟩ := C06_loaded_wf pl k file m hm
  have hr := C07_integers_in_range pl _ file m hm
  have hl : m.old.geoms.length = m.geoms.length := oldGeoms_length
  have h2 : m.old.geoms.map OldGeom.plain = m.geoms.map (Geom.old0 m.kind) := oldGeoms_plain _ _ _
  rw [C95_bad_id m.old (by rw [hl]; exact bad)]
  have hlen : (m.geoms ++ [(⟨0, []⟩ : Geom F64)]).length = (m.geomnum + 1).toNat := by
    have := hw.geoms
    simp
    omega
  have hw' : MeshWF { m with geoms := m.geoms ++ [⟨0, []⟩], geomnum := m.geomnum + 1 } := by
    refine ⟨hlen, fun g hg => ?_, hw.vattrs, hw.vertformat, hw.vertices, hw.not_one, hw.index, hw.u2⟩
    rcases List.mem_append.1 hg with hg | hg
    · exact hw.geom g hg
    · rw [List.mem_singleton] at hg
      subst hg
      exact ⟨rfl, fun l hl => (by cases hl), fun l hl => (by cases hl)⟩
  have hr' : InRange pl { m with geoms := m.geoms ++ [⟨0, []⟩], geomnum := m.geomnum + 1 } := by
    refine { hr with geomnum := long, lodnum := fun g hg => ?_, lods := fun g hg => ?_ }
    · rcases List.mem_append.1 hg with hg | hg
      · exact hr.lodnum g hg
      · rw [List.mem_singleton] at hg
        subst hg
        unfold IsLong
        split <;> simp
    · rcases List.mem_append.1 hg with hg | hg
      · exact hr.lods g hg
      · rw [List.mem_singleton] at hg
        subst hg
        intro l hl
        cases hl
  obtain ⟨out, h1, h3⟩ := shows_save (shows_geoms (gs := m.old.geoms ++ [⟨0, []⟩])
    (by rw [List.map_append, List.map_append, h2]; rfl) (m.geomnum + 1)) hw' hr'
  obtain ⟨hi, tail, ht, rfl⟩ := oldSave_cut (pl := pl) (o := { m.old with geomnum := m.geomnum + 1 })
    (more := [⟨0, []⟩]) (by
      show m.old.geoms.length + 1 = (m.geomnum + 1).toNat
      rw [← hlen, hl]
      simp) (by simp) h1
  exact ⟨hi, C05_truncation_rejected pl _ _ tail _ h3 ht⟩

/-- The second geom copied to the front, by negative ids; an id out of range. -/
example : load (F := F64) win staticKind twoFile = .ok joinPlain ∧
    Names joinPlain.geoms.length (-1) 1 ∧ InsertsAt joinPlain.geoms.length (-5) 0 ∧
    IsLong win (joinPlain.geomnum + 1) ∧
    (load (F := F64) win staticKind (oldSave win (copyGeomId joinPlain.old (-1) (-5)).1).bytes).toOption.map
      (fun m => (m.geomnum, m.geoms.map fun g => g.mats.map (·.vstart), m.vertices)) =
      some (3, [[2], [0], [2]], upto12) ∧
    (copyGeomId joinPlain.old 2 0).2 = some .indexError ∧
    (oldSave win (copyGeomId joinPlain.old 2 0).1).err = some .indexError :=
  ⟨by decide +kernel, ⟨by decide, .inr (by decide)⟩, by unfold InsertsAt; decide,
    by unfold IsLong; decide, by decide +kernel, by decide +kernel, by decide +kernel⟩

/-! ## C96: delete_geom_id -/

/-- A tiled mesh whose arrays are lists, an id from the front, a geom whose first lod has a material:
the geom goes with its vertices and indices, all other geoms keep theirs, and the materials still tile
both arrays. -/
theorem C96_delete_geom {vs : Nat} {m : OldMesh F} (packed : Packed vs m) (tiled : OldTiled m)
    (tiledIndex : OldTiledIndex m) (vertsList : m.vertsList = true) (indexList : m.indexList = true)
    (small : m.vertices.length ≤ 2 ^ 53) {j : Nat} {g : OldGeom F} {a : Mat F}
    (hg : m.geoms[j]? = some g) (first : g.First a) :
    ∃ m', deleteGeomId m j = (m', none) ∧
      m' = { m with
        geomnum := m.geomnum - 1, geoms := m'.geoms, vertices := m'.vertices
        vertnum := m.vertnum - (g.mats.map Mat.vnum).sum, index := m'.index
        indexnum := m.indexnum - (g.mats.map Mat.inum).sum } ∧
      List.Forall₂ (OldGeomKept vs m m') (m.geoms.eraseIdx j) m'.geoms ∧
      Packed vs m' ∧ OldTiled m' ∧ OldTiledIndex m' :=
  delete_ok packed tiled tiledIndex vertsList indexList small hg first

/-- On a mesh just loaded the arrays are tuples: the method always raises, and changes nothing. -/
theorem C96_raises_after_load (m : Mesh F) (id : Int) :
    ∃ e, deleteGeomId m.old id = (m.old, some e) := by
  unfold deleteGeomId
  rcases pyGet m.old.geoms id with _ | g
  · exact ⟨_, rfl⟩
  · have hl : (!m.old.vertsList) = true := rfl
    simp only [hl, if_true]
    split_ifs
    · exact ⟨_, rfl⟩
    · exact ⟨_, rfl⟩
    · rcases (g.lods.head?.bind fun l => l.materials.head?) with _ | a <;> exact ⟨_, rfl⟩

/-- An id that names no geom, a geom without materials, or with a first lod without materials:
nothing is changed. -/
theorem C96_refused (m : OldMesh F) (id : Int) :
    ((∀ j, ¬ Names m.geoms.length id j) → deleteGeomId m id = (m, some .indexError)) ∧
    (∀ j g, Names m.geoms.length id j → m.geoms[j]? = some g → g.mats = [] →
      deleteGeomId m id = (m, some .valueError)) ∧
    (∀ j g l ls, Names m.geoms.length id j → m.geoms[j]? = some g → g.lods = l :: ls →
      l.materials = [] → g.mats ≠ [] → m.vertformat ≠ 0 →
      deleteGeomId m id = (m, some .indexError)) := by
  refine ⟨?_, ?_, ?_⟩
  · intro h
    unfold deleteGeomId
    rw [pyGet_bad h]
  · intro j g hn hg he
    unfold deleteGeomId
    simp only [pyGet_names hn, hg, he, if_true]
  · intro j g l ls hn hg hl hm hne hf
    unfold deleteGeomId
    simp only [pyGet_names hn, hg, hne, if_false, hf]
    have : (g.lods.head?.bind fun l => l.materials.head?) = none := by rw [hl]; simp [hm]
    rw [this]

/-- If only the index array is a tuple, a `TypeError` comes after the vertices are gone. -/
theorem C96_index_tuple {m : OldMesh F} {id : Int} {j : Nat} {g : OldGeom F} {a : Mat F}
    (names : Names m.geoms.length id j) (hg : m.geoms[j]? = some g) (first : g.First a)
    (format : m.vertformat ≠ 0) (vertsList : m.vertsList = true) (indexList : m.indexList = false) :
    ∃ vs, deleteGeomId m id = ({ m with
      vertices := vs, vertnum := m.vertnum - (g.mats.map Mat.vnum).sum }, some .typeError) := by
  obtain ⟨l, ls, as, hl, hla⟩ := first
  have hhead : (g.lods.head?.bind fun l => l.materials.head?) = some a := by rw [hl]; simp [hla]
  have hne : g.mats ≠ [] := by
    show g.lods.flatMap OldLod.materials ≠ []
    rw [hl, List.flatMap_cons, hla]
    simp
  unfold deleteGeomId
  simp only [pyGet_names names, hg, hne, if_false, format, hhead, vertsList, indexList, Bool.not_true,
    Bool.not_false, Bool.false_eq_true, if_true]
  exact ⟨_, rfl⟩

/-- A negative id deletes the right geom, but the geoms in front of it are shifted as well: with
tiled materials, one of them then starts at a negative vertex. -/
theorem C96_negative_id {vs : Nat} {m : OldMesh F} (packed : Packed vs m) (tiled : OldTiled m)
    (vertsList : m.vertsList = true) (indexList : m.indexList = true) {id : Int} {j : Nat}
    {g : OldGeom F} {a : Mat F} (names : Names m.geoms.length id j) (negative : id < 0)
    (hg : m.geoms[j]? = some g) (first : g.First a) :
    (deleteGeomId m id).2 = none ∧
      (deleteGeomId m id).1.geoms = (m.geoms.eraseIdx j).map (OldGeom.mapMats fun b => { b with
        vstart := b.vstart - (g.mats.map Mat.vnum).sum
        istart := b.istart - (g.mats.map Mat.inum).sum }) ∧
      (0 < (g.mats.map Mat.vnum).sum → (∃ (i : Nat) (h : OldGeom F), i < j ∧ m.geoms[i]? = some h ∧
        h.mats ≠ []) → ∃ b ∈ (deleteGeomId m id).1.mats, b.vstart < 0) := by
  obtain ⟨l, ls, as, hl, hla⟩ := first
  have hhead : (g.lods.head?.bind fun l => l.materials.head?) = some a := by rw [hl]; simp [hla]
  have hne : g.mats ≠ [] := by
    show g.lods.flatMap OldLod.materials ≠ []
    rw [hl, List.flatMap_cons, hla]
    simp
  have key : (deleteGeomId m id).2 = none ∧
      (deleteGeomId m id).1.geoms = (m.geoms.eraseIdx j).map (OldGeom.mapMats fun b => { b with
        vstart := b.vstart - (g.mats.map Mat.vnum).sum
        istart := b.istart - (g.mats.map Mat.inum).sum }) := by
    unfold deleteGeomId
    simp only [pyGet_names names, hg, hne, if_false, packed.table.format, hhead, vertsList, indexList,
      Bool.not_true, Bool.false_eq_true, pyPos_names names, true_and]
    rw [← List.eraseIdx_map]
    congr 1
    apply List.ext_getElem?
    intro i
    rw [List.getElem?_mapIdx, List.getElem?_map]
    rcases m.geoms[i]? with _ | y
    · rfl
    · rw [Option.map_some, Option.map_some, if_pos (by omega)]
  refine ⟨key.1, key.2, ?_⟩
  rintro hpos ⟨i, h, hij, hi, hm⟩
  have hm' : (deleteGeomId m id).1.mats = ((m.geoms.eraseIdx j).flatMap OldGeom.mats).map fun b =>
      { b with vstart := b.vstart - (g.mats.map Mat.vnum).sum
               istart := b.istart - (g.mats.map Mat.inum).sum } := by
    rw [← mats_mapMats, ← key.2]
    rfl
  have hlt := (List.getElem?_eq_some_iff.1 hg).1
  have hne0 : (m.geoms.take j).flatMap OldGeom.mats ≠ [] := by
    intro h0
    rw [List.flatMap_eq_nil_iff] at h0
    refine hm (h0 h (List.mem_of_getElem? (i := i) ?_))
    rw [List.getElem?_take_of_lt hij, hi]
  obtain ⟨b, bs, hb⟩ := List.exists_cons_of_ne_nil hne0
  have hall : m.mats = b :: (bs ++ (m.geoms.drop j).flatMap OldGeom.mats) := by
    have : m.mats = m.geoms.flatMap OldGeom.mats := rfl
    rw [this, ← List.take_append_drop j m.geoms, List.flatMap_append, hb]
    simp
  have hb0 : b.vstart = 0 := by
    have := tiled.start 0 b (by rw [hall]; rfl)
    simpa using this
  refine ⟨{ b with vstart := b.vstart - (g.mats.map Mat.vnum).sum
                   istart := b.istart - (g.mats.map Mat.inum).sum }, ?_, by simp [hb0]; omega⟩
  rw [hm']
  refine List.mem_map.2 ⟨b, ?_, rfl⟩
  rw [List.eraseIdx_eq_take_drop_succ, List.flatMap_append, hb]
  simp

/-- The sample mesh as lists. -/
def joinList : OldMesh F64 := { joinPlain.old with vertsList := true, indexList := true }

theorem joinList_tiled : OldTiled joinList ∧ OldTiledIndex joinList :=
  ⟨⟨by decide +kernel, starts_of rfl, by decide +kernel⟩,
    ⟨by decide +kernel, starts_of rfl, by decide +kernel⟩⟩

/-- The first geom of two, by its id from the front, and from the back. -/
example : Packed 4 joinList ∧ OldTiled joinList ∧ OldTiledIndex joinList ∧
    (deleteGeomId joinList 0).1.vertices = [9, 10, 11, 12].map flt ∧
    (deleteGeomId joinList 0).1.index = [0, 0, 0] ∧
    (deleteGeomId joinList 0).1.mats.map (fun a => (a.vstart, a.vnum, a.istart, a.inum)) =
      [(0, 1, 0, 3)] ∧
    Names joinList.geoms.length (-1) 1 ∧
    (deleteGeomId joinList (-1)).1.vertices = [1, 2, 3, 4, 5, 6, 7, 8].map flt ∧
    (deleteGeomId joinList (-1)).1.mats.map (fun a => (a.vstart, a.vnum, a.istart, a.inum)) =
      [(-1, 2, -3, 3)] ∧
    (deleteGeomId { joinList with indexList := false } 0).2 = some .typeError ∧
    (deleteGeomId { joinList with indexList := false } 0).1.vertices = [9, 10, 11, 12].map flt ∧
    (deleteGeomId joinPlain.old 0).2 = some .typeError :=
  ⟨⟨posTable, rfl⟩, joinList_tiled.1, joinList_tiled.2, by decide +kernel, by decide +kernel,
    by decide +kernel, ⟨by decide, .inr (by decide)⟩, by decide +kernel, by decide +kernel,
    by decide +kernel, by decide +kernel, by decide +kernel⟩

/-- The refusals: no such geom; a geom without materials. -/
example : (deleteGeomId joinList 2).2 = some .indexError ∧
    (deleteGeomId joinShort.old 1).2 = some .valueError ∧
    (∃ a, (joinList.geoms[0]?.map fun g => g.lods.map (·.materials)) = some [[a]]) := by
  refine ⟨by decide +kernel, by decide +kernel, ⟨_, rfl⟩⟩

/-! ## C97: edit_vertex -/

/-- On a vertex list the given floats replace those from the place of the attribute in that vertex
on, as many as are given; nothing else changes. -/
theorem C97_edit_vertex {vs o : Nat} {m : OldMesh F} {u : Int} {i : Nat} {data : List F}
    (table : PackedTable vs m.vertformat m.vertstride m.vattrs)
    (editable : ∀ a ∈ m.vattrs, EditableAttr a) (usage : UsageAt m.vertformat m.vattrs u o)
    (small : o ≤ 2 ^ 53) (vertsList : m.vertsList = true) (exist : (i : Int) < m.vertnum)
    (fits : i * vs + o + data.length ≤ m.vertices.length) :
    editVertex m i u data =
      ({ m with vertices := overwritten m.vertices (i * vs + o) data }, none) :=
  editVertex_ok table editable usage small vertsList exist fits

/-- Data that fit the vertex change that vertex only. -/
theorem C97_other_vertices {vs o : Nat} {l : List F} {i : Nat} {data : List F}
    (inside : o + data.length ≤ vs) (fits : (i + 1) * vs ≤ l.length) :
    (∀ j, j ≠ i → vert vs (overwritten l (i * vs + o) data) j = vert vs l j) ∧
    vert vs (overwritten l (i * vs + o) data) i = overwritten (vert vs l i) o data := by
  have hs : (i + 1) * vs = i * vs + vs := by ring
  have hle : i * vs + o + data.length ≤ l.length := by omega
  constructor
  · intro j hj
    unfold vert
    apply List.ext_getElem?
    intro k
    rcases Nat.lt_or_ge k vs with hk | hk
    · rw [List.getElem?_take_of_lt hk, List.getElem?_take_of_lt hk, List.getElem?_drop,
        List.getElem?_drop, overwritten_getElem? hle, if_neg]
      rintro ⟨h1, h2⟩
      rcases Nat.lt_or_gt_of_ne hj with h | h
      · have : (j + 1) * vs ≤ i * vs := Nat.mul_le_mul_right _ h
        rw [Nat.add_mul, Nat.one_mul] at this
        omega
      · have : (i + 1) * vs ≤ j * vs := Nat.mul_le_mul_right _ h
        omega
    · rw [List.getElem?_take_eq_none hk, List.getElem?_take_eq_none hk]
  · have hv : (vert vs l i).length = vs := by
      unfold vert
      rw [List.length_take, List.length_drop]
      omega
    apply List.ext_getElem?
    intro k
    rw [overwritten_getElem? (by rw [hv]; exact inside)]
    unfold vert
    rcases Nat.lt_or_ge k vs with hk | hk
    · rw [List.getElem?_take_of_lt hk, List.getElem?_take_of_lt hk, List.getElem?_drop,
        List.getElem?_drop, overwritten_getElem? hle]
      by_cases h : o ≤ k ∧ k < o + data.length
      · rw [if_pos h, if_pos (by omega)]
        congr 1
        omega
      · rw [if_neg h, if_neg (by omega)]
    · rw [List.getElem?_take_eq_none hk, List.getElem?_take_eq_none hk, if_neg (by omega)]

/-- Data that reach past the end of the array are written as far as it goes, then `IndexError`. -/
theorem C97_past_end {vs o : Nat} {m : OldMesh F} {u : Int} {i : Nat} {data : List F}
    (table : PackedTable vs m.vertformat m.vertstride m.vattrs)
    (editable : ∀ a ∈ m.vattrs, EditableAttr a) (usage : UsageAt m.vertformat m.vattrs u o)
    (small : o ≤ 2 ^ 53) (vertsList : m.vertsList = true) (exist : (i : Int) < m.vertnum)
    (starts : i * vs + o ≤ m.vertices.length) (past : m.vertices.length < i * vs + o + data.length) :
    editVertex m i u data = ({ m with
      vertices := m.vertices.take (i * vs + o) ++ data.take (m.vertices.length - (i * vs + o)) },
      some .indexError) := by
  refine editVertex_raises table.format editable usage.1 fun a ha hu => ?_
  have e1 : intTrueDiv m.vertstride m.vertformat = vs :=
    intTrueDiv_exact table.format table.stride (by
      rw [abs_of_nonneg (by positivity)]
      have := table.small
      have h2 : ((vs : Nat) : Int) ≤ 65535 := by exact_mod_cast this
      linarith)
  have e2 : intTrueDiv a.offset m.vertformat = o :=
    intTrueDiv_exact table.format (usage.2 a ha hu) (by
      rw [abs_of_nonneg (by positivity)]
      exact_mod_cast small)
  rw [editVertexAttr_at table.format (editable a ha) ⟨hu, by omega, exist⟩, e1, e2]
  exact setFloats_past vertsList (by push_cast; ring) starts past

/-- A vertex that does not exist, or a usage no entry has: nothing happens, silently. -/
theorem C97_silent {m : OldMesh F} {u id : Int} (data : List F) (format : m.vertformat ≠ 0)
    (editable : ∀ a ∈ m.vattrs, EditableAttr a)
    (h : id < 0 ∨ m.vertnum ≤ id ∨ ∀ a ∈ m.vattrs, a.usage ≠ u) :
    editVertex m id u data = (m, none) := by
  refine foldS_same fun a ha => editVertexAttr_other format (editable a ha) ?_
  rintro ⟨h1, h2, h3⟩
  rcases h with h | h | h
  · omega
  · omega
  · exact h a ha h1

/-- On a mesh just loaded the vertices are a tuple: `TypeError`, nothing is changed. -/
theorem C97_tuple {m : OldMesh F} {u id : Int} {data : List F} (format : m.vertformat ≠ 0)
    (editable : ∀ a ∈ m.vattrs, EditableAttr a) (has : ∃ a ∈ m.vattrs, a.usage = u)
    (exist : 0 ≤ id ∧ id < m.vertnum) (some : data ≠ []) (tuple : m.vertsList = false) :
    editVertex m id u data = (m, .some .typeError) := by
  refine editVertex_raises format editable has fun a ha hu => ?_
  rw [editVertexAttr_at format (editable a ha) ⟨hu, exist⟩]
  exact setFloats_tuple tuple _ some

/-- Entries marked unused are edited as well.  The usual last entry of a table claims `POSITION` at
offset 0; if the position is elsewhere, editing it overwrites what is at offset 0. -/
theorem C97_unused_entry_edited : ∃ (m : OldMesh F64) (data : List F64), Packed 4 m ∧
    (∀ a ∈ m.vattrs, EditableAttr a) ∧ Float3At m.vertformat m.vattrs 0 1 ∧ data.length = 3 ∧
    m.vertsList = true ∧ (editVertex m 0 0 data).2 = none ∧
    (vert 4 (editVertex m 0 0 data).1.vertices 0)[0]? ≠ (vert 4 m.vertices 0)[0]? :=
  ⟨{ joinList with vattrs := [⟨0, 0, 0, 10⟩, ⟨0, 4, 2, 0⟩, ⟨255, 0, 17, 0⟩] }, [21, 22, 23].map flt,
    ⟨⟨by decide, by decide, by decide, by decide, by unfold OldKnownType KnownUsage; decide,
      .used (n := 1) (by decide) rfl rfl (.used (n := 3) (by decide) rfl rfl (.unused rfl .done)),
      by decide⟩, rfl⟩,
    by unfold EditableAttr KnownUsage; decide, ⟨⟨0, 4, 2, 0⟩, by decide, by decide, rfl, rfl, rfl⟩, rfl,
    rfl, by decide +kernel, by decide +kernel⟩

/-- The position of the second vertex: three floats; four floats, the last into the next attribute;
past the end; a vertex that does not exist. -/
example : (∀ a ∈ joinList.vattrs, EditableAttr a) ∧ UsageAt joinList.vertformat joinList.vattrs 0 0 ∧
    PackedTable 4 joinList.vertformat joinList.vertstride joinList.vattrs ∧
    (editVertex joinList 1 0 ([21, 22, 23].map flt)).1.vertices =
      [1, 2, 3, 4, 21, 22, 23, 8, 9, 10, 11, 12].map flt ∧
    (editVertex joinList 1 0 ([21, 22, 23, 24].map flt)).1.vertices =
      [1, 2, 3, 4, 21, 22, 23, 24, 9, 10, 11, 12].map flt ∧
    (editVertex joinList 2 0 ([21, 22, 23, 24, 25].map flt)).2 = some .indexError ∧
    (editVertex joinList 2 0 ([21, 22, 23, 24, 25].map flt)).1.vertices =
      [1, 2, 3, 4, 5, 6, 7, 8, 21, 22, 23, 24].map flt ∧
    editVertex joinList 3 0 [flt 1] = (joinList, none) ∧
    editVertex joinPlain.old 1 0 [flt 1] = (joinPlain.old, some .typeError) :=
  ⟨by unfold EditableAttr KnownUsage; decide,
    ⟨⟨⟨0, 0, 2, 0⟩, by decide, rfl⟩, by decide⟩, posTable, by decide +kernel, by decide +kernel,
    by decide +kernel, by decide +kernel, by decide +kernel, by decide +kernel⟩

/-! ## C98: rename_texture -/

/-- A path in ASCII replaces exactly the named map of the named material. -/
theorem C98_rename_texture {m : OldMesh F} {gi li ai qi : Int} {i j k q : Nat} {g : OldGeom F}
    {l : OldLod F} {a : Mat F} {path : List Nat} (ascii : ∀ c ∈ path, c < 128)
    (hi : Names m.geoms.length gi i) (hg : m.geoms[i]? = some g)
    (hj : Names g.lods.length li j) (hl : g.lods[j]? = some l)
    (hk : Names l.materials.length ai k) (ha : l.materials[k]? = some a)
    (hq : Names a.maps.length qi q) :
    renameTexture m gi li ai qi path = ({ m with geoms := m.geoms.set i { g with
      lods := g.lods.set j { l with materials := l.materials.set k { a with
        maps := a.maps.set q (path.map fun c => UInt8.ofNat c) } } } }, none) := by
  have hp : path.any (128 ≤ ·) = false := by
    rw [List.any_eq_false]
    intro c hc
    have := ascii c hc
    simpa using this
  unfold renameTexture
  simp only [hp, Bool.false_eq_true, if_false, pyPos_names hi, hg, pyPos_names hj, hl, pyPos_names hk,
    ha, pyPos_names hq]

/-- A path that is not ASCII makes a `ValueError`, an id that names nothing an `IndexError`; nothing
is changed. -/
theorem C98_refused {m : OldMesh F} {gi li ai qi : Int} {path : List Nat} :
    ((∃ c ∈ path, 128 ≤ c) → renameTexture m gi li ai qi path = (m, some .valueError)) ∧
    ((∀ c ∈ path, c < 128) →
      (¬ ∃ i j k q g l a, Names m.geoms.length gi i ∧ m.geoms[i]? = some g ∧ Names g.lods.length li j ∧
        g.lods[j]? = some l ∧ Names l.materials.length ai k ∧ l.materials[k]? = some a ∧
        Names a.maps.length qi q) →
      renameTexture m gi li ai qi path = (m, some .indexError)) := by
  constructor
  · rintro ⟨c, hc, h⟩
    unfold renameTexture
    rw [if_pos]
    exact List.any_eq_true.2 ⟨c, hc, by simpa using h⟩
  · intro ascii no
    have hp : path.any (128 ≤ ·) = false := by
      rw [List.any_eq_false]
      intro c hc
      have := ascii c hc
      simpa using this
    unfold renameTexture
    simp only [hp, Bool.false_eq_true, if_false]
    rcases hi : pyPos m.geoms.length gi with _ | i
    · rfl
    simp only
    rcases hg : m.geoms[i]? with _ | g
    · rfl
    simp only
    rcases hj : pyPos g.lods.length li with _ | j
    · rfl
    simp only
    rcases hl : g.lods[j]? with _ | l
    · rfl
    simp only
    rcases hk : pyPos l.materials.length ai with _ | k
    · rfl
    simp only
    rcases ha : l.materials[k]? with _ | a
    · rfl
    simp only
    rcases hq : pyPos a.maps.length qi with _ | q
    · rfl
    exact absurd ⟨i, j, k, q, g, l, a, names_pyPos hi, hg, names_pyPos hj, hl, names_pyPos hk, ha,
      names_pyPos hq⟩ no

/-- The map of the second material becomes `x.dds`; a path with a letter outside ASCII. -/
example : (renameTexture joinPlain.old 1 0 (-1) 0 [0x78, 0x2e, 0x64, 0x64, 0x73]).1.mats.map (·.maps) =
      [[[0x63]], [[0x78, 0x2e, 0x64, 0x64, 0x73]]] ∧
    (renameTexture joinPlain.old 1 0 0 0 [0x78, 0xe9]).2 = some .valueError ∧
    (renameTexture joinPlain.old 1 0 0 1 [0x78]).2 = some .indexError ∧
    Names joinPlain.old.geoms.length 1 1 :=
  ⟨by decide +kernel, by decide +kernel, by decide +kernel, ⟨by decide, .inl rfl⟩⟩

end Bf2
