import Verif.OldScriptsLemmas
import Verif.Props.OldTransform

/-!
# The scripts in `/repo/deprecated`: C100 to C102
-/

namespace Bf2

variable {F : Type}

/-! ## C100: copy_geom_table -/

/-- Two tiled meshes with the same number of floats per vertex, the first one's arrays being lists: the
first gets the geoms of the second behind its own, with their vertices and indices; its own geoms keep
theirs, all counts are right, and the materials tile both arrays. -/
theorem C100_copy_geoms {vs : Nat} {m o : OldMesh F} (packed : Packed vs m) (tiled : OldTiled m)
    (tiledIndex : OldTiledIndex m) (indexnum : m.indexnum = m.index.length)
    (vertsList : m.vertsList = true) (indexList : m.indexList = true)
    (count : (o.vertices.length : Int) = o.vertnum * vs) (tiled' : OldTiled o)
    (tiledIndex' : OldTiledIndex o) (small : m.vertices.length + o.vertices.length ≤ 2 ^ 53) :
    ∃ m' o' gs, copyGeomTable m o = (m', o', none) ∧
      m' = { m with
        geoms := m.geoms ++ gs, geomnum := m.geoms.length + o.geoms.length
        vertices := m.vertices ++ o.vertices, vertnum := m.vertnum + o.vertnum
        index := m.index ++ o.index, indexnum := m.index.length + o.index.length } ∧
      List.Forall₂ (OldGeomKept vs m m') m.geoms m.geoms ∧
      List.Forall₂ (OldGeomKept vs o m') o.geoms gs ∧
      Packed vs m' ∧ OldTiled m' ∧ OldTiledIndex m' := by
  obtain ⟨m', gs, h1, h2, h3, h4, -, h5⟩ := copy_ok packed tiled tiledIndex indexnum vertsList indexList
    count tiled' tiledIndex' small
  exact ⟨m', _, gs, h1, h2, h3, h4, h5⟩

/-- The geoms are not copied: the second mesh keeps its arrays, but its materials now have the starts
they have in the first.  If the first had a vertex, the second is no longer tiled. -/
theorem C100_second_spoilt {vs : Nat} {m o : OldMesh F} (packed : Packed vs m) (tiled : OldTiled m)
    (tiledIndex : OldTiledIndex m) (indexnum : m.indexnum = m.index.length)
    (vertsList : m.vertsList = true) (indexList : m.indexList = true)
    (count : (o.vertices.length : Int) = o.vertnum * vs) (tiled' : OldTiled o)
    (tiledIndex' : OldTiledIndex o) (small : m.vertices.length + o.vertices.length ≤ 2 ^ 53) :
    ∃ m' o', copyGeomTable m o = (m', o', none) ∧
      o' = { o with geoms := o.geoms.map (OldGeom.mapMats (behind m)) } ∧
      (0 < m.vertnum → o.mats ≠ [] → ¬ OldTiled o') := by
  obtain ⟨m', gs, h1, -, -, -, rfl, -⟩ := copy_ok packed tiled tiledIndex indexnum vertsList indexList
    count tiled' tiledIndex' small
  refine ⟨m', _, h1, rfl, fun hv ho ht => ?_⟩
  rcases hm : o.mats with _ | ⟨a, as⟩
  · exact ho hm
  have h := ht.start 0 (behind m a) (by
    show ((o.geoms.map (OldGeom.mapMats (behind m))).flatMap OldGeom.mats)[0]? = _
    rw [mats_mapMats, show o.geoms.flatMap OldGeom.mats = o.mats from rfl, hm]
    rfl)
  have h0 := tiled'.start 0 a (by rw [hm]; rfl)
  simp only [List.take_zero, List.map_nil, List.sum_nil, behind] at h h0
  omega

/-- A mesh just loaded has tuples: as soon as a geom of the second mesh has a material,
`AttributeError`, with the geoms up to that one already appended and not counted. -/
theorem C100_raises_after_load (m : Mesh F) {o : OldMesh F} (format : m.vertformat ≠ 0)
    {G rest : List (OldGeom F)} {g : OldGeom F} (geoms : o.geoms = G ++ g :: rest)
    (empty : ∀ h ∈ G, h.mats = []) (first : g.mats ≠ []) :
    copyGeomTable m.old o =
      ({ m.old with geoms := m.old.geoms ++ G ++ [g] }, o, some .attributeError) :=
  copy_tuple format rfl geoms empty first

/-- A first mesh whose `vertformat` or `vertstride` is 0: `ZeroDivisionError`. -/
theorem C100_zero {m o : OldMesh F} (verts : m.vertsList = true) (index : m.indexList = true)
    (zero : m.vertformat = 0 ∨ m.vertstride = 0) :
    (copyGeomTable m o).2.2 = some .zeroDivisionError :=
  copy_zero verts index zero

/-- With a stride of 0 the geoms have been appended by then. -/
example : (copyGeomTable { joinList with vertstride := 0 } joinPlain.old).2.2 =
      some .zeroDivisionError ∧
    (copyGeomTable { joinList with vertstride := 0 } joinPlain.old).1.geomnum = 4 := by
  decide +kernel

theorem joinPlain_tiled : OldTiled joinPlain.old ∧ OldTiledIndex joinPlain.old :=
  ⟨⟨by decide +kernel, starts_of rfl, by decide +kernel⟩,
    ⟨by decide +kernel, starts_of rfl, by decide +kernel⟩⟩

example : Packed 4 joinList ∧ OldTiled joinList ∧ OldTiledIndex joinList ∧
    joinList.indexnum = joinList.index.length ∧
    (joinPlain.old.vertices.length : Int) = joinPlain.old.vertnum * (4 : Nat) ∧
    OldTiled joinPlain.old ∧ OldTiledIndex joinPlain.old ∧
    (copyGeomTable joinList joinPlain.old).1.vertices = upto12 ++ upto12 ∧
    (copyGeomTable joinList joinPlain.old).1.index = [0, 1, 1, 0, 0, 0, 0, 1, 1, 0, 0, 0] ∧
    (copyGeomTable joinList joinPlain.old).1.mats.map (fun a => (a.vstart, a.vnum, a.istart, a.inum)) =
      [(0, 2, 0, 3), (2, 1, 3, 3), (3, 2, 6, 3), (5, 1, 9, 3)] ∧
    (copyGeomTable joinList joinPlain.old).2.1.mats.map (·.vstart) = [3, 5] ∧
    (copyGeomTable joinPlain.old joinList).2.2 = some .attributeError ∧
    (copyGeomTable joinPlain.old joinList).1.geoms.length = 3 ∧
    (copyGeomTable joinPlain.old joinList).1.geomnum = 2 :=
  ⟨⟨posTable, rfl⟩, joinList_tiled.1, joinList_tiled.2, rfl, rfl, joinPlain_tiled.1, joinPlain_tiled.2,
    by decide +kernel, by decide +kernel, by decide +kernel, by decide +kernel, by decide +kernel,
    by decide +kernel, by decide +kernel⟩

/-! ## C101: remove_vertice_id and replace_index_id -/

/-- Whatever the id, vertex 24 goes: the vertices in front of it keep their numbers, those behind it
move down by one.  A mesh with at most 24 vertices only gets its vertices as a list. -/
theorem C101_removes_vertex_24 {vs : Nat} {m : OldMesh F} (packed : Packed vs m)
    (small : m.vertnum ≤ 2 ^ 53) (id : Int) :
    (m.vertnum ≤ 24 → removeVertice m id = ({ m with vertsList := true }, none)) ∧
    (24 < m.vertnum → ∃ l, removeVertice m id =
        ({ m with vertsList := true, vertnum := m.vertnum - 1, vertices := l }, none) ∧
      (l.length : Int) = (m.vertnum - 1) * vs ∧
      (∀ i < 24, vert vs l i = vert vs m.vertices i) ∧
      ∀ i, 24 ≤ i → vert vs l i = vert vs m.vertices (i + 1)) := by
  refine ⟨removeVertice_few packed id, fun h => ⟨_, removeVertice_ok packed small id h, ?_⟩⟩
  obtain ⟨n, hn, hlen⟩ := packed.num
  have hk : 24 < n := by omega
  refine ⟨?_, fun i hi => ?_, fun i hi => ?_⟩
  · have b : 25 * vs ≤ m.vertices.length := by
      rw [hlen]; exact Nat.mul_le_mul_right _ (by omega)
    rw [List.length_append, List.length_take, List.length_drop, Nat.min_eq_left (by omega), hn, hlen]
    have : 24 * vs + (n * vs - 25 * vs) = (n - 1) * vs := by
      rw [← Nat.sub_mul, ← Nat.add_mul]; congr 1; omega
    rw [this]
    push_cast [show 1 ≤ n by omega]
    ring
  · rw [vert_removed (k := 24) hlen hk, if_pos hi]
  · rw [vert_removed (k := 24) hlen hk, if_neg (by omega)]

/-- No material is adapted: if the materials tiled the vertices before, they no longer do. -/
theorem C101_materials_kept {vs : Nat} {m : OldMesh F} (packed : Packed vs m)
    (small : m.vertnum ≤ 2 ^ 53) (tiled : OldTiled m) (id : Int) (h : 24 < m.vertnum) :
    (removeVertice m id).1.geoms = m.geoms ∧ (removeVertice m id).1.index = m.index ∧
      ¬ OldTiled (removeVertice m id).1 := by
  rw [removeVertice_ok packed small id h]
  refine ⟨rfl, rfl, fun ht => ?_⟩
  have h1 := ht.total
  have h2 := tiled.total
  simp only [OldMesh.mats] at h1 h2
  omega

/-- Whatever the arguments, `replace_index_id` replaces 24 by 14. -/
theorem C101_replaces_24_by_14 (m : OldMesh F) (original replace : Int) :
    replaceIndex m original replace =
        { m with indexList := true, index := (replaceIndex m original replace).index } ∧
      (replaceIndex m original replace).index.length = m.index.length ∧
      ∀ (k : Nat) (i : Int), m.index[k]? = some i →
        (i = 24 → (replaceIndex m original replace).index[k]? = some 14) ∧
        (i ≠ 24 → (replaceIndex m original replace).index[k]? = some i) := by
  refine ⟨rfl, by simp [replaceIndex], fun k i hk => ?_⟩
  constructor <;> intro h <;> simp [replaceIndex, hk, h]

/-- For a mesh with 25 vertices, the two together give a mesh with 24 in which every index names the
vertex it named before, or vertex 14 instead of the one removed. -/
theorem C101_box {vs : Nat} {m : OldMesh F} (packed : Packed vs m) (count : m.vertnum = 25)
    (inside : ∀ i ∈ m.index, 0 ≤ i ∧ i < 25) :
    ∃ m1, removeVertice m 24 = (m1, none) ∧ (replaceIndex m1 24 14).vertnum = 24 ∧
      Packed vs (replaceIndex m1 24 14) ∧
      (replaceIndex m1 24 14).index.length = m.index.length ∧
      ∀ (k : Nat) (i : Int), m.index[k]? = some i →
        ∃ i' : Nat, (replaceIndex m1 24 14).index[k]? = some (i' : Int) ∧ i' < 24 ∧
          (i ≠ 24 → i = i') ∧ (i = 24 → i' = 14) ∧
          vert vs (replaceIndex m1 24 14).vertices i' = vert vs m.vertices i' := by
  obtain ⟨-, h⟩ := C101_removes_vertex_24 packed (by omega) 24
  obtain ⟨l, h1, h2, h3, -⟩ := h (by omega)
  refine ⟨_, h1, ?_, ⟨packed.table, h2⟩, ?_, ?_⟩
  · show m.vertnum - 1 = 24
    omega
  · simp [replaceIndex]
  · intro k i hk
    obtain ⟨b1, b2⟩ := inside i (List.mem_of_getElem? hk)
    by_cases hi : i = 24
    · refine ⟨14, by simp [replaceIndex, hk, hi], by omega, fun h => absurd hi h, fun _ => rfl, ?_⟩
      exact h3 14 (by omega)
    · obtain ⟨i, rfl⟩ := Int.eq_ofNat_of_zero_le b1
      have hlt : i < 24 := by omega
      exact ⟨i, by simp [replaceIndex, hk, hi], hlt, fun _ => rfl, fun h => absurd h hi, h3 i hlt⟩

/-- 25 vertices in one material. -/
def boxLike : OldMesh F64 :=
  (meshOf (flt 0) posAttrs 16 25 [[(0, 25, 0, 3)]] ((List.range 100).map fun i => flt i) [3, 24, 0]).old

example : Packed 4 boxLike ∧ OldTiled boxLike ∧ boxLike.vertnum = 25 ∧
    (∀ i ∈ boxLike.index, 0 ≤ i ∧ i < 25) ∧
    (removeVertice boxLike 7).1.vertices = (List.range 96).map (fun i => flt i) ∧
    (removeVertice boxLike 7).1.vertnum = 24 ∧
    (replaceIndex boxLike 7 8).index = [3, 14, 0] :=
  ⟨⟨posTable, by simp [boxLike, meshOf, Mesh.old]⟩,
    ⟨by decide +kernel, starts_of rfl, by decide +kernel⟩, rfl, by decide +kernel, by decide +kernel,
    by decide +kernel, by decide +kernel⟩

/-! ## C102: remove_attribute -/

/-- An attribute that is not the first of the table and the only one with its usage: it goes from the
table, and every vertex object is the same without it. -/
theorem C102_remove_attribute {vs n j : Nat} {m : OldMesh F} {a : VAttr} (packed : Packed vs m)
    (vertsList : m.vertsList = true) (editable : ∀ b ∈ m.vattrs, EditableAttr b)
    (ha : m.vattrs[j]? = some a) (not_first : j ≠ 0) (used : a.flag ≠ 255)
    (floats : oldFloats a.vartype = some n) (room : n < vs)
    (only : ∀ (k : Nat) (b : VAttr), m.vattrs[k]? = some b → b.usage = a.usage → k = j) :
    ∃ m', removeAttribute m a.usage = (m', none) ∧
      m' = { m with
        vertattribnum := m.vattrs.length - 1, vattrs := m'.vattrs
        vertstride := m.vertstride - n * m.vertformat, vertices := m'.vertices } ∧
      List.Forall₂ SameAttr (m.vattrs.eraseIdx j) m'.vattrs ∧ Packed (vs - n) m' ∧
      ∀ i : Nat, (i : Int) < m.vertnum →
        ∃ v, getVertex m i = .ok v ∧ getVertex m' i = .ok (v.drop a.usage) :=
  removeAttribute_ok packed vertsList editable ha not_first used floats room only

/-- The first attribute of the table loses its floats, but stays in the table, and the stride is kept:
the vertex array is too short for it. -/
theorem C102_first_attribute {vs n : Nat} {m : OldMesh F} {a : VAttr} {A : List VAttr}
    (packed : Packed vs m) (vertsList : m.vertsList = true)
    (editable : ∀ b ∈ m.vattrs, EditableAttr b) (attrs : m.vattrs = a :: A) (used : a.flag ≠ 255)
    (floats : oldFloats a.vartype = some n) (only : ∀ b ∈ A, b.usage ≠ a.usage) :
    ∃ m', removeAttribute m a.usage = (m', none) ∧
      m' = { m with vattrs := m'.vattrs, vertices := m'.vertices } ∧
      List.Forall₂ SameAttr m.vattrs m'.vattrs ∧
      (m'.vertices.length : Int) = m.vertnum * (vs - n) ∧ (0 < m.vertnum → ¬ Packed vs m') := by
  obtain ⟨attrs', l, h1, h2, h3⟩ := removeAttribute_first packed vertsList editable attrs used floats only
  refine ⟨_, h1, rfl, h2, h3, fun hv hp => ?_⟩
  have h4 := hp.count
  have h5 : (l.length : Int) = m.vertnum * vs := h4
  have hn : (0 : Int) < n := by exact_mod_cast oldFloats_pos floats
  rw [h3] at h5
  have := mul_pos hv hn
  nlinarith

/-- A usage no entry has: nothing happens. -/
theorem C102_no_such_attribute {m : OldMesh F} (format : m.vertformat ≠ 0)
    (editable : ∀ b ∈ m.vattrs, EditableAttr b) {u : Int} (other : ∀ b ∈ m.vattrs, b.usage ≠ u) :
    removeAttribute m u = (m, none) :=
  removeAttribute_none format editable other

/-- On a mesh just loaded, with at least one vertex, `TypeError`, and nothing is changed. -/
theorem C102_raises_after_load (m : Mesh F) (format : m.vertformat ≠ 0) (verts : 0 < m.vertnum)
    (editable : ∀ b ∈ m.old.vattrs, EditableAttr b) {u : Int}
    (some_entry : ∃ b ∈ m.old.vattrs, b.usage = u) :
    removeAttribute m.old u = (m.old, some .typeError) :=
  removeAttribute_tuple format rfl verts editable some_entry

/-- The first entry that cannot be read raises, when no entry before it has the usage asked for, and
nothing is changed: `ValueError` for an unknown usage or type, `KeyError` for FLOAT4. -/
theorem C102_unreadable_entry {m : OldMesh F} (format : m.vertformat ≠ 0) {B A : List VAttr}
    {a : VAttr} {u : Int} (attrs : m.vattrs = B ++ a :: A)
    (before : ∀ b ∈ B, EditableAttr b ∧ b.usage ≠ u) :
    (¬ KnownUsage a.usage → removeAttribute m u = (m, some .valueError)) ∧
    (KnownUsage a.usage → a.vartype ∉ [(0 : Int), 1, 2, 3, 4, 5, 17] →
      removeAttribute m u = (m, some .valueError)) ∧
    (KnownUsage a.usage → a.vartype = 3 → removeAttribute m u = (m, some .keyError)) := by
  refine ⟨fun h => ?_, fun h ht => ?_, fun h ht => ?_⟩ <;>
    refine removeAttribute_bad format attrs before ?_ <;> unfold remAttr
  · rw [← usageKnown_iff, Bool.not_eq_true] at h
    rw [h]
    rfl
  · rw [(usageKnown_iff _).2 h, if_neg format]
    simp only [List.mem_cons, List.not_mem_nil, or_false, not_or] at ht
    obtain ⟨h0, h1, h2, h3, h4, h5, h17⟩ := ht
    unfold oldDeclLen
    rw [if_neg h0, if_neg h1, if_neg h2, if_neg h4, if_neg h5, if_neg h17, if_neg h3]
    rfl
  · rw [(usageKnown_iff _).2 h, if_neg format, ht]
    rfl

/-- A table with three attributes. -/
def threeAttrs : List VAttr := [⟨0, 0, 2, 0⟩, ⟨0, 12, 1, 5⟩, ⟨0, 20, 0, 10⟩, ⟨255, 0, 17, 0⟩]

theorem threeTable : PackedTable 6 4 24 threeAttrs where
  pos := by decide
  small := by decide
  format := by decide
  stride := by decide
  known := by decide
  packs := .used (n := 3) (by decide) rfl (by decide)
    (.used (n := 2) (by decide) rfl (by decide)
      (.used (n := 1) (by decide) rfl (by decide) (.unused rfl .done)))
  distinct := by decide

def threeList : OldMesh F64 :=
  { (meshOf (flt 0) threeAttrs 24 2 [[(0, 2, 0, 3)]] upto12 [0, 1, 0]).old with vertsList := true }

theorem threeList_only (k : Nat) (b : VAttr) (hb : threeList.vattrs[k]? = some b) (hu : b.usage = 5) :
    k = 1 := by
  rcases k with _ | _ | _ | _ | k
  · cases hb; cases hu
  · rfl
  · cases hb; cases hu
  · cases hb; cases hu
  · cases hb

/-- Entries with usage 100, type 9, type FLOAT4 behind a readable one. -/
example : (removeAttribute { threeList with vattrs := [⟨0, 0, 2, 0⟩, ⟨0, 12, 1, 100⟩] } 5).2 =
      some .valueError ∧
    (removeAttribute { threeList with vattrs := [⟨0, 0, 2, 0⟩, ⟨0, 12, 9, 5⟩] } 5).2 =
      some .valueError ∧
    (removeAttribute { threeList with vattrs := [⟨0, 0, 2, 0⟩, ⟨0, 12, 3, 5⟩] } 5).2 =
      some .keyError ∧ EditableAttr ⟨0, 0, 2, 0⟩ ∧ ¬ KnownUsage 100 := by
  unfold EditableAttr KnownUsage; decide +kernel

/-- The attribute in the middle. -/
example : Packed 6 threeList ∧ (∀ b ∈ threeList.vattrs, EditableAttr b) ∧
    threeList.vattrs[1]? = some ⟨0, 12, 1, 5⟩ ∧
    (∀ (k : Nat) (b : VAttr), threeList.vattrs[k]? = some b → b.usage = 5 → k = 1) ∧
    (removeAttribute threeList 5).1.vertices = [1, 2, 3, 6, 7, 8, 9, 12].map flt ∧
    (removeAttribute threeList 5).1.vattrs = [⟨0, 0, 2, 0⟩, ⟨0, 12, 0, 10⟩, ⟨255, 0, 17, 0⟩] ∧
    (removeAttribute threeList 5).1.vertstride = 16 ∧
    (removeAttribute threeList 3) = (threeList, none) ∧
    (removeAttribute { threeList with vertsList := false } 5).2 = some .typeError :=
  ⟨⟨threeTable, rfl⟩, by unfold EditableAttr KnownUsage; decide, rfl,
    threeList_only, by decide +kernel, by decide +kernel, by decide +kernel, by decide +kernel,
    by decide +kernel⟩

/-- The first attribute of a table, without and with the usual last entry, which has usage POSITION
too: in the second case that entry is deleted in place of the attribute. -/
example : (removeAttribute { threeList with vattrs := threeAttrs.take 3 } 0).1.vattrs =
      [⟨0, 0, 2, 0⟩, ⟨0, 0, 1, 5⟩, ⟨0, 8, 0, 10⟩] ∧
    (removeAttribute { threeList with vattrs := threeAttrs.take 3 } 0).1.vertstride = 24 ∧
    (removeAttribute { threeList with vattrs := threeAttrs.take 3 } 0).1.vertices =
      [4, 5, 6, 10, 11, 12].map flt ∧
    (∀ b ∈ (threeAttrs.take 3).tail, b.usage ≠ 0) ∧
    (removeAttribute threeList 0).1.vattrs = [⟨0, 0, 2, 0⟩, ⟨0, 0, 1, 5⟩, ⟨0, 8, 0, 10⟩] ∧
    (removeAttribute threeList 0).1.vertstride = 24 := by
  decide +kernel

end Bf2
