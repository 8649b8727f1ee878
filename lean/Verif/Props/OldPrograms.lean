import Verif.OldProgramsLemmas
import Verif.Props.Object
import Verif.Props.OldBox
import Verif.Props.Session
import Verif.Sample

/-!
# The scripts of `/repo/deprecated` as programs: C118 to C120
-/

namespace Bf2

/-! ## C118: box_modify.py -/

/-- On a file the deprecated module loads as a box with 25 vertices and four texture coordinates, the
program runs to its end and writes one file.  Loaded again that is a mesh with the vertices 0 to 23, each
without its texture coordinates 2 to 4, with (0.5, 1.0) for the first of vertex 14, and with 14 for the
index 24.  The geoms, with all materials, are as before; so if the materials tiled the vertices, they do
not now. -/
theorem C118_box_modify (pl : Plat) {fs fs1 : FS} {source target : Str} {loc : Loc} {m : OldMesh F64}
    {vs : Nat} (hm : oldLoadPath pl fs source = .ok m) (box : BoxWithUVs vs m)
    (kind : oldKind target = oldKind source) (hd : fs.ensureDir target = (fs1, none))
    (hr : fs1.resolve target = .ok loc) (hnd : fs1.node loc ≠ some .dir) :
    ∃ fs' out m', boxModify half64 one64 pl fs source target = (fs', none) ∧
      Written fs fs' target loc out ∧ oldLoadPath pl fs' target = .ok m' ∧
      m' = { m with
        vertnum := 24, index := m'.index, vertattribnum := m'.vattrs.length, vattrs := m'.vattrs
        vertstride := m.vertstride - 6 * m.vertformat, vertices := m'.vertices } ∧
      m'.index = m.index.map (fun i => if i = 24 then 14 else i) ∧
      m.vattrs.length = m'.vattrs.length + 3 ∧ Packed (vs - 6) m' ∧
      (∀ i < 24, ∃ v, getVertex m (i : Nat) = .ok v ∧
        getVertex m' (i : Nat) = .ok (boxVertex half64 one64 i v)) ∧
      (OldTiled m → ¬ OldTiled m') := by
  obtain ⟨m1, e1, ed⟩ := boxEdits_ok box half64 one64
  have hread := hm
  unfold oldLoadPath at hread
  rcases hb : fs.read source with e | file
  · rw [hb] at hread; cases hread
  rw [hb] at hread
  simp only at hread
  obtain ⟨n, hn, hlen⟩ := box.packed.num
  have hroom := ed.room
  have hc := box.count
  have hn25 : n = 25 := by omega
  obtain ⟨part, suffix, p, -, hp, hfirst, rfl⟩ := C83_loads_only pl _ file m hread (by
    rw [hlen, hn25]; omega)
  obtain ⟨wf, range⟩ := C103_loaded pl _ part p hp
  have floats : ∀ x ∈ m1.vertices, stored x = x := by
    intro x hx
    rcases ed.floats box.packed box.count x hx with h | rfl | rfl
    · exact loaded_stored hp x h
    · decide +kernel
    · decide +kernel
  have hf := ed.fields
  obtain ⟨out, h1, h2⟩ := save_edited hp hfirst (ed.wf wf) (ed.range box.packed wf range)
    (by rw [hf]; rfl) (by rw [hf]) floats
  obtain ⟨fs', hs, hw, hl⟩ := C85_written (m := m1) hd hr hnd (pl := pl)
  rw [h1] at hs hw hl
  rw [kind] at hl
  rw [h2] at hl
  refine ⟨fs', out, _, ?_, hw, hl, ?_, ed.index, ed.attrs, ⟨ed.packed.table, ed.packed.count⟩, ?_,
    fun ht ht' => ?_⟩
  · unfold boxModify
    rw [hm]
    simp only
    rw [e1]
    exact hs
  · conv_lhs => rw [hf]
    rfl
  · intro i hi
    obtain ⟨v, g, g'⟩ := ed.verts i hi
    exact ⟨v, g, g'⟩
  · have t1 := ht.total
    have t2 := ht'.total
    have hg : m1.geoms = p.old.geoms := by rw [hf]
    simp only [OldMesh.mats, hg, ed.num] at t1 t2
    omega

/-- The attribute table of the sample file. -/
def evilAttrs : List VAttr :=
  [⟨0, 0, 2, 0⟩, ⟨0, 12, 2, 3⟩, ⟨0, 24, 4, 2⟩, ⟨0, 28, 1, 5⟩, ⟨0, 36, 1, 261⟩, ⟨0, 44, 1, 517⟩,
    ⟨0, 52, 1, 773⟩, ⟨0, 60, 1, 1029⟩, ⟨0, 68, 2, 6⟩, ⟨255, 0, 17, 0⟩]

theorem evilTable : PackedTable 20 4 80 evilAttrs where
  pos := by decide
  small := by decide
  format := by decide
  stride := by decide
  known := by decide
  packs := .used (n := 3) (by decide) rfl (by decide) <| .used (n := 3) (by decide) rfl (by decide) <|
    .used (n := 1) (by decide) rfl (by decide) <| .used (n := 2) (by decide) rfl (by decide) <|
    .used (n := 2) (by decide) rfl (by decide) <| .used (n := 2) (by decide) rfl (by decide) <|
    .used (n := 2) (by decide) rfl (by decide) <| .used (n := 2) (by decide) rfl (by decide) <|
    .used (n := 3) (by decide) rfl (by decide) <| .unused rfl .done
  distinct := by decide

theorem evil_one {j : Nat} {u : Int} (a : VAttr) (ha : evilAttrs[j]? = some a) (hj : j ≠ 0)
    (hf : a.flag ≠ 255) (hu : a.usage = u) (ht : a.vartype = 1)
    (only : ∀ k < 10, (evilAttrs[k]?.map VAttr.usage) = some u → k = j) : OneFloat2 evilAttrs u := by
  refine ⟨j, a, ha, hj, hf, hu, ht, fun k b hk hb => only k ?_ (by rw [hk, ← hb]; rfl)⟩
  exact (List.getElem?_eq_some_iff.1 hk).1

theorem evilBox_loads : ∃ m : OldMesh F64, oldLoad win staticKind evilBox = .ok m ∧
    BoxWithUVs 20 m ∧ OldTiled m := by
  have h : (oldLoad (F := F64) win staticKind evilBox).toOption.map (fun o =>
      decide (o.vattrs = evilAttrs ∧ o.vertformat = 4 ∧ o.vertstride = 80 ∧ o.vertnum = 25 ∧
        o.vertices.length = 500 ∧ (o.mats.map fun a => (a.vstart, a.vnum)) = [(0, 25)])) =
      some true := by decide +kernel
  rcases e : oldLoad (F := F64) win staticKind evilBox with _ | o
  · rw [e] at h; cases h
  · rw [e] at h
    simp only [Except.toOption, Option.map_some, Option.some.injEq, decide_eq_true_eq] at h
    obtain ⟨h1, h2, h3, h4, h5, h6⟩ := h
    refine ⟨o, rfl, ⟨⟨by rw [h1, h2, h3]; exact evilTable, by rw [h4, h5]; rfl⟩,
      by rw [h1]; unfold EditableAttr; decide, by rw [h1]; decide, h4, ?_⟩, ?_⟩
    · rw [h1]
      intro u hu
      simp only [List.mem_cons, List.not_mem_nil, or_false] at hu
      rcases hu with rfl | rfl | rfl | rfl
      · exact evil_one (j := 3) ⟨0, 28, 1, 5⟩ rfl (by decide) (by decide) rfl rfl (by decide)
      · exact evil_one (j := 4) ⟨0, 36, 1, 261⟩ rfl (by decide) (by decide) rfl rfl (by decide)
      · exact evil_one (j := 5) ⟨0, 44, 1, 517⟩ rfl (by decide) (by decide) rfl rfl (by decide)
      · exact evil_one (j := 6) ⟨0, 52, 1, 773⟩ rfl (by decide) (by decide) rfl rfl (by decide)
    · rcases hm : o.mats with _ | ⟨a, _ | ⟨b, r⟩⟩
      · rw [hm] at h6; cases h6
      · rw [hm] at h6
        simp only [List.map_cons, List.map_nil, List.cons.injEq, Prod.mk.injEq, and_true] at h6
        refine ⟨?_, ?_, ?_⟩
        · rw [hm]; intro x hx; simp at hx; subst hx; omega
        · rw [hm]
          intro i x hx
          rcases i with _ | i
          · simp at hx; subst hx; simp [h6.1]
          · simp at hx
        · rw [hm, h4]; simp [h6.2]
      · rw [hm] at h6; simp at h6

/-- Where the script, started in `/w`, looks for the sample: outside Windows this is one name. -/
def evilSource : Str := "/w\\tests\\samples\\evil_box\\Meshes\\evil_box.staticmesh".toList

/-- The sample in a file of that name. -/
def evilFS : FS := fsWith ["w\\tests\\samples\\evil_box\\Meshes\\evil_box.staticmesh".toList] evilBox

/-- The hypotheses hold for the program as it is, with the sample file of the repository. -/
example : ∃ (m : OldMesh F64) (fs1 : FS) (loc : Loc), oldLoadPath win evilFS evilSource = .ok m ∧
    BoxWithUVs 20 m ∧ OldTiled m ∧ oldKind boxModifyTarget = oldKind evilSource ∧
    evilFS.ensureDir boxModifyTarget = (fs1, none) ∧ fs1.resolve boxModifyTarget = .ok loc ∧
    fs1.node loc ≠ some .dir := by
  obtain ⟨m, h1, h2, h3⟩ := evilBox_loads
  have hd : (evilFS.ensureDir boxModifyTarget).2 = none := by decide +kernel
  have hr : (evilFS.ensureDir boxModifyTarget).1.resolve boxModifyTarget = .ok [['w'],
    "generated".toList, "generated_box".toList, "meshes".toList,
    "generated_box_edit.staticmesh".toList] := by decide +kernel
  refine ⟨m, (evilFS.ensureDir boxModifyTarget).1, _, ?_, h2, h3, by decide +kernel, ?_, hr,
    by decide +kernel⟩
  · have hread : evilFS.read evilSource = .ok evilBox := by decide +kernel
    have hk : oldKind evilSource = staticKind := by decide +kernel
    unfold oldLoadPath
    rw [hread, hk]
    exact h1
  · rw [← hd]

/-- What the program shows first: the two floats of UV1 of vertex 24, as `get_vertex` gives them, and
nothing else. -/
theorem C118_prints {m : OldMesh F64} {vs : Nat} (box : BoxWithUVs vs m) :
    ∃ v data, getVertex m 24 = .ok v ∧ v 5 = some data ∧
      printVertexData m 24 5 m.vattrs = ([data], none) :=
  printVertexData_one box.packed box.editable (box.uvs 5 (by decide)) (i := 24)
    (by rw [box.count]; decide)


/-- On the sample file the face of the vertex removed is torn: vertex 24 is at the place of vertex 18, and
vertex 14, which its two triangles get instead, is at another corner. -/
theorem C118_face_torn : ∃ m : OldMesh F64, oldLoad win staticKind evilBox = .ok m ∧
    (∀ i : Nat, m.index[i]? = some 24 ↔ i = 6 ∨ i = 11) ∧
    vec3At m.vertices (24 * 20) = vec3At m.vertices (18 * 20) ∧
    ∃ a b : Vec3 F64, vec3At m.vertices (24 * 20) = some a ∧ vec3At m.vertices (14 * 20) = some b ∧
      a.z.value = 1 / 2 ∧ b.z.value = -1 / 2 := by
  have h : (oldLoad (F := F64) win staticKind evilBox).toOption.map (fun o =>
      (o.index.length, (List.range 36).filter (fun i => o.index[i]? = some 24),
        decide (vec3At o.vertices (24 * 20) = vec3At o.vertices (18 * 20)),
        (vec3At o.vertices (24 * 20)).map fun v => v.z.value,
        (vec3At o.vertices (14 * 20)).map fun v => v.z.value)) =
      some (36, [6, 11], true, some (1 / 2), some (-1 / 2)) := by decide +kernel
  rcases e : oldLoad (F := F64) win staticKind evilBox with _ | o
  · rw [e] at h; cases h
  · rw [e] at h
    simp only [Except.toOption, Option.map_some, Option.some.injEq, Prod.mk.injEq] at h
    obtain ⟨h1, h2, h3, h4, h5⟩ := h
    obtain ⟨a, ha, ha'⟩ := Option.map_eq_some_iff.1 h4
    obtain ⟨b, hb, hb'⟩ := Option.map_eq_some_iff.1 h5
    refine ⟨o, rfl, fun i => ?_, of_decide_eq_true h3, a, b, ha, hb, ha', hb'⟩
    have hm : i ∈ (List.range 36).filter (fun i => decide (o.index[i]? = some 24)) ↔ i = 6 ∨ i = 11 := by
      rw [h2]; simp
    rw [← hm, List.mem_filter, List.mem_range, decide_eq_true_eq]
    constructor
    · intro hi
      exact ⟨by rw [← h1]; exact (List.getElem?_eq_some_iff.1 hi).1, hi⟩
    · exact fun hi => hi.2

/-! ## C119: mesh_read.py -/

section
variable {F : Type}

/-- On a mesh whose table describes its vertices, `display_mesh_data` does not raise.  It shows, for every
entry of the table, the entry and then that attribute of every vertex; then, for every index, the index
with the first three floats of that vertex, three to a block. -/
theorem C119_display {vs : Nat} {m : OldMesh F} (packed : Packed vs m) (wide : 3 ≤ vs)
    (editable : ∀ a ∈ m.vattrs, EditableAttr a) (inside : ∀ i ∈ m.index, 0 ≤ i ∧ i < m.vertnum) :
    ∃ blocks, displayMesh m = (blocks.flatten ++ .indices :: cornerLines vs m, none) ∧
      List.Forall₂ (ShownAttr m) m.vattrs blocks := by
  obtain ⟨blocks, h1, h2⟩ := displayAttrs_ok packed (as := m.vattrs) (fun a ha => ha) editable
  have h3 := displayIndex_ok packed wide inside
  refine ⟨blocks, ?_, h2⟩
  unfold displayMesh
  rw [h1]
  simp only
  rw [h3]

/-- If the position comes first in the vertex, a corner is shown with its position. -/
theorem C119_corner {vs : Nat} {m : OldMesh F} (packed : Packed vs m)
    (pos : Float3At m.vertformat m.vattrs 0 0) {i : Nat} (hi : (i : Int) < m.vertnum) :
    ∃ v, getVertex m i = .ok v ∧ v 0 = some ((vert vs m.vertices i).take 3) := by
  obtain ⟨n, hn, hlen⟩ := packed.num
  obtain ⟨v, g, hh⟩ := getVertex_holds packed.table i (by
    rw [hlen]; exact Nat.mul_le_mul_right _ (by omega))
  obtain ⟨k, pre, x, y, z, post, e1, e2, e3, e4, -⟩ :=
    hh.at packed.table.format packed.table.packs packed.table.distinct pos
  refine ⟨v, g, ?_⟩
  rw [e4, e2]
  have : pre = [] := List.length_eq_zero_iff.1 (by omega)
  subst this
  rfl

end

/-- The sample: its indices name its vertices, and the position comes first. -/
example : ∃ m : OldMesh F64, oldLoad win staticKind evilBox = .ok m ∧ Packed 20 m ∧
    (∀ a ∈ m.vattrs, EditableAttr a) ∧ (∀ i ∈ m.index, 0 ≤ i ∧ i < m.vertnum) ∧
    Float3At m.vertformat m.vattrs 0 0 := by
  obtain ⟨m, hm, box, -⟩ := evilBox_loads
  have h : (oldLoad (F := F64) win staticKind evilBox).toOption.map (fun o =>
      decide ((∀ i ∈ o.index, 0 ≤ i ∧ i < o.vertnum) ∧ o.vattrs = evilAttrs)) = some true := by
    decide +kernel
  rw [hm] at h
  simp only [Except.toOption, Option.map_some, Option.some.injEq, decide_eq_true_eq] at h
  refine ⟨m, hm, box.packed, box.editable, h.1, ?_⟩
  rw [h.2]
  exact ⟨⟨0, 0, 2, 0⟩, by decide, by decide, rfl, rfl, by simp⟩

/-! ## C120: mesh_order_fix.py and box_new.py -/

/-- The file loaded by `mesh_order_fix.py`, the one saved, and the one saved by `box_new.py`. -/
def kitsSource : Str := "ch_kits.skinnedmesh".toList
def kitsTarget : Str := "./ch_kits2.skinnedmesh".toList
def boxTarget : Str := "generated/generated_box/meshes/generated_box.staticmesh".toList

theorem kitsOrder_names {n : Nat} (h : 17 ≤ n) : List.Forall₂ (Names n) kitsOrder
    [0, 1, 2, 3, 4, 5, 6, 7, 9, 8, 10, 11, 12, 13, 14, 15, 16] := by
  unfold kitsOrder Names
  repeat' constructor
  all_goals omega

/-- On a file with 17 geoms the program runs to its end and writes one file, which loads as the mesh with
the geoms 8 and 9 swapped. -/
theorem C120_order_fix (pl : Plat) {fs fs1 : FS} {file : Bytes} {m : Mesh F64} {loc : Loc}
    (source : fs.read kitsSource = .ok file) (hm : load pl skinnedKind file = .ok m)
    (first : ¬ FirstEmpty m.lods) (count : m.geoms.length = 17)
    (hd : fs.ensureDir kitsTarget = (fs1, none)) (hr : fs1.resolve kitsTarget = .ok loc)
    (hnd : fs1.node loc ≠ some .dir) :
    ∃ fs' out gs, orderFix F64 pl fs = (fs', none) ∧ Written fs fs' kitsTarget loc out ∧
      PickedAt m.geoms [0, 1, 2, 3, 4, 5, 6, 7, 9, 8, 10, 11, 12, 13, 14, 15, 16] gs ∧
      load pl skinnedKind out =
        .ok (({ m with geoms := gs } : Mesh F64).lastNodes.map fun x => unpackF (packF x)) := by
  have names := kitsOrder_names (n := m.geoms.length) (by omega)
  have hold : oldLoadPath pl fs kitsSource = .ok m.old := by
    have := C83_loads_the_same pl skinnedKind file [] m hm first
    rw [List.append_nil] at this
    unfold oldLoadPath
    rw [source]
    exact this
  obtain ⟨gs, out, h1, h2, h3⟩ := C94_save_reload pl skinnedKind file m hm names
    (by rw [count]; rfl)
  have hl : m.old.geoms.length = m.geoms.length := oldGeoms_length
  obtain ⟨gs0, -, he⟩ := C94_order_geoms m.old (by rw [hl]; exact names)
  obtain ⟨fs', hs, hw, -⟩ := C85_written (m := (orderGeomsBy m.old kitsOrder).1) hd hr hnd (pl := pl)
  rw [h2] at hs hw
  refine ⟨fs', out, gs, ?_, hw, h1, h3⟩
  unfold orderFix
  rw [show "ch_kits.skinnedmesh".toList = kitsSource from rfl, hold]
  rw [he] at hs
  simp only [he]
  exact hs

/-- With fewer geoms the program ends with an `IndexError` and leaves all files alone. -/
theorem C120_few_geoms (pl : Plat) {fs : FS} {file : Bytes} {m : Mesh F64}
    (source : fs.read kitsSource = .ok file) (hm : load pl skinnedKind file = .ok m)
    (first : ¬ FirstEmpty m.lods) (count : m.geoms.length < 17) :
    orderFix F64 pl fs = (fs, some .indexError) := by
  have hold : oldLoadPath pl fs kitsSource = .ok m.old := by
    have := C83_loads_the_same pl skinnedKind file [] m hm first
    rw [List.append_nil] at this
    unfold oldLoadPath
    rw [source]
    exact this
  have hl : m.old.geoms.length = m.geoms.length := oldGeoms_length
  have := C94_bad_id m.old (order := kitsOrder) (id := 16) (by decide) (by
    rw [hl]
    rintro j ⟨h1, h2⟩
    omega)
  unfold orderFix
  rw [show "ch_kits.skinnedmesh".toList = kitsSource from rfl, hold]
  simp only [this]

/-- With more geoms the program raises `IndexError` in the middle of saving: what was in the file is lost, and
what is left there does not load. -/
theorem C120_many_geoms (pl : Plat) {fs fs1 : FS} {file : Bytes} {m : Mesh F64} {loc : Loc}
    (source : fs.read kitsSource = .ok file) (hm : load pl skinnedKind file = .ok m)
    (first : ¬ FirstEmpty m.lods) (count : 17 < m.geoms.length)
    (hd : fs.ensureDir kitsTarget = (fs1, none)) (hr : fs1.resolve kitsTarget = .ok loc)
    (hnd : fs1.node loc ≠ some .dir) :
    ∃ fs' out, orderFix F64 pl fs = (fs', some .indexError) ∧ Written fs fs' kitsTarget loc out ∧
      load (F := F64) pl skinnedKind out = .error .structError := by
  have names := kitsOrder_names (n := m.geoms.length) (by omega)
  have hold : oldLoadPath pl fs kitsSource = .ok m.old := by
    have := C83_loads_the_same pl skinnedKind file [] m hm first
    rw [List.append_nil] at this
    unfold oldLoadPath
    rw [source]
    exact this
  obtain ⟨h1, h3, h4⟩ := C94_short_order pl skinnedKind file m hm names count
  obtain ⟨fs', hs, hw, -⟩ := C85_written (m := (orderGeomsBy m.old kitsOrder).1) hd hr hnd (pl := pl)
  refine ⟨fs', _, ?_, hw, h4⟩
  unfold orderFix
  rw [show "ch_kits.skinnedmesh".toList = kitsSource from rfl, hold]
  rw [h3] at hs
  rcases ho : orderGeomsBy m.old kitsOrder with ⟨o, err⟩
  rw [ho] at h1 hs
  simp only at h1
  subst h1
  simp only [ho]
  exact hs

/-- `box_new.py`, as meant, writes one file; both modules load it as the box. -/
theorem C120_box_new (pl : Plat) {fs fs1 : FS} {loc : Loc}
    (hd : fs.ensureDir boxTarget = (fs1, none)) (hr : fs1.resolve boxTarget = .ok loc)
    (hnd : fs1.node loc ≠ some .dir) :
    ∃ fs' out m, boxNew pl fs = (fs', none) ∧ Written fs fs' boxTarget loc out ∧
      load pl staticKind out = .ok m ∧ Shows { mockBox with kind := staticKind } m ∧
      oldLoadPath pl fs' boxTarget = .ok m.old := by
  obtain ⟨out, m, h1, h2, h3, h4⟩ := C105_box_save_reload pl
  obtain ⟨fs', hs, hw, hl⟩ := C85_written (m := mockBox) hd hr hnd (pl := pl)
  rw [h1] at hs hw hl
  refine ⟨fs', out, m, hs, hw, h2, h3, ?_⟩
  rw [hl, ← h4]
  rfl

/-- A skinned mesh of `n + 9` geoms; the one with id 8 has a lod, the others have none. -/
def kitsOf (n : Nat) : Mesh F64 :=
  { sesMesh with
    kind := skinnedKind, geomnum := n + 9
    geoms := List.replicate 8 ⟨0, []⟩ ++
      ⟨1, [{ min := ⟨flt 0, flt 0, flt 0⟩, max := ⟨flt 0, flt 0, flt 0⟩, pivot := none
             rignum := 0, rigs := [], nodenum := 0, nodes := [], matnum := 1
             materials := [{ (matOf (0, 3, 0, 3) : Mat F64) with alphamode := none }] }]⟩ :: List.replicate n ⟨0, []⟩ }

/-- The mesh in the file that `mesh_order_fix.py` loads, started in `/w`. -/
def kitsOfFS (n : Nat) : FS := fsWith [['w'], kitsSource] (exportMesh win (kitsOf n)).bytes

def kitsReady (n : Nat) : Prop :=
  (kitsOfFS n).read kitsSource = .ok (exportMesh win (kitsOf n)).bytes ∧
    load win skinnedKind (exportMesh win (kitsOf n)).bytes = .ok (kitsOf n) ∧
    ¬ FirstEmpty (kitsOf n).lods ∧ ((kitsOfFS n).ensureDir kitsTarget).2 = none ∧
    ((kitsOfFS n).ensureDir kitsTarget).1.resolve kitsTarget =
      .ok [['w'], "ch_kits2.skinnedmesh".toList] ∧
    ((kitsOfFS n).ensureDir kitsTarget).1.node [['w'], "ch_kits2.skinnedmesh".toList] = none

/-- Files with 17, 9 and 18 geoms. -/
example : kitsReady 8 ∧ (kitsOf 8).geoms.length = 17 ∧ kitsReady 0 ∧ (kitsOf 0).geoms.length = 9 ∧
    kitsReady 9 ∧ (kitsOf 9).geoms.length = 18 := by
  unfold kitsReady
  decide +kernel

example : (boxFS.ensureDir boxTarget).2 = none ∧
    (boxFS.ensureDir boxTarget).1.resolve boxTarget = .ok [['w'], "generated".toList,
      "generated_box".toList, "meshes".toList, "generated_box.staticmesh".toList] := by decide +kernel

end Bf2
