import Verif.OldEditLemmas
import Verif.FloatArith
import Verif.Props.Translate
import Verif.Props.Format

/-!
# The editing methods of `/repo/deprecated/modmesh.py`: C86 - C90

`Packed vs m` (`OldEditSpec.lean`): the attribute table describes vertices of `vs` floats completely
and in order, and the vertex array holds `vertnum` of them.
-/

namespace Bf2

variable {F : Type}

/-! ## A sample -/

/-- Every material of a mesh gets these bounds. -/
def OldMesh.bound (m : OldMesh F) (mn mx : Vec3 F) : OldMesh F :=
  { m with geoms := m.geoms.map fun g => g.mapMats fun a => { a with mmin := some mn, mmax := some mx } }

/-- Two materials of two and one vertices, in order, with bounds. -/
def oldMovable (z : F) (vs : List F) : OldMesh F := (movable z vs).old.bound ⟨z, z, z⟩ ⟨z, z, z⟩

theorem posTable : PackedTable 4 4 16 posAttrs where
  pos := by decide
  small := by decide
  format := by decide
  stride := by decide
  known := by decide
  packs := .used (n := 3) (by decide) rfl (by decide)
    (.used (n := 1) (by decide) rfl (by decide) (.unused rfl .done))
  distinct := by decide

theorem oldMovable_packed (z : F) (vs : List F) (h : vs.length = 12) : Packed 4 (oldMovable z vs) where
  table := posTable
  count := by
    change (vs.length : Int) = _
    rw [h]; rfl

theorem posTable_float3 : Float3At 4 posAttrs 0 0 := ⟨⟨0, 0, 2, 0⟩, by decide, by decide⟩

theorem oldMovable_tiled (z : F) (vs : List F) : OldTiled (oldMovable z vs) where
  nonneg := by simp [oldMovable, OldMesh.bound, OldMesh.mats, OldGeom.mapMats, movable, meshOf, geomOf,
    matOf, Mesh.old, oldGeoms, oldLods, Lod.old]
  start := starts_of rfl
  total := rfl

theorem oldMovable_bounds (z : F) (vs : List F) : HasBounds (oldMovable z vs) := by
  simp [HasBounds, oldMovable, OldMesh.bound, OldMesh.mats, OldGeom.mapMats, movable, meshOf, geomOf,
    matOf, Mesh.old, oldGeoms, oldLods, Lod.old]

/-- The floats 1 to 12. -/
def upto12 : List F64 := (List.range 12).map fun i => flt (i + 1)

/-! ## C86: vertex objects carry all floats -/

section
variable [FArith F]

/-- On a packed mesh `get_vertices` succeeds with `vertnum` objects, and `update_vertices` with any of
them, in any order and repeated at will, makes the vertex array the floats of these vertices and
`vertnum` their number; nothing else but bounds changes. -/
theorem C86_vertices_roundtrip {vs : Nat} {m : OldMesh F} (packed : Packed vs m) (ids : List Nat)
    (exist : ∀ i ∈ ids, (i : Int) < m.vertnum) (small : ids.length * vs ≤ 2 ^ 53) :
    ∃ objs gs, getVertices m = .ok objs ∧ (objs.length : Int) = m.vertnum ∧
      (updateVertices m (ids.filterMap fun i => objs[i]?)).1 = { m with
        vertices := ids.flatMap (vert vs m.vertices), vertsList := false
        vertnum := ids.length, geoms := gs } := by
  obtain ⟨n, hn, hlen⟩ := packed.num
  obtain ⟨vo, hvo, hh⟩ := getVertices_holds packed.table hn hlen
  have hvl : vo.length = n := by rw [hh.length_eq, verts_length]
  have hsel := forall₂_filterMap hh ids
  have hws : (ids.filterMap fun i => (verts vs n m.vertices)[i]?) = ids.map (vert vs m.vertices) := by
    rw [← List.filterMap_eq_map]
    apply List.filterMap_congr
    intro i hi
    have := exist i hi
    unfold verts
    rw [List.getElem?_map, List.getElem?_range (by omega)]
    rfl
  rw [hws] at hsel
  obtain ⟨h1, -⟩ := updateVertices_eq packed.table hsel (by simpa using small)
  obtain ⟨gs, hgs⟩ := oldUpdateBoundaries_fst { m with
    vertices := (ids.map (vert vs m.vertices)).flatten, vertsList := false
    vertnum := (ids.map (vert vs m.vertices)).length }
  refine ⟨vo, gs, hvo, by omega, ?_⟩
  rw [h1, hgs, List.flatMap_def, List.length_map]

/-- Writing back all vertices as they are leaves the vertex array as it is. -/
theorem C86_unchanged {vs : Nat} {m : OldMesh F} (packed : Packed vs m)
    (small : m.vertices.length ≤ 2 ^ 53) :
    ∃ objs gs, getVertices m = .ok objs ∧
      (updateVertices m objs).1 = { m with vertsList := false, geoms := gs } := by
  obtain ⟨n, hn, hlen⟩ := packed.num
  obtain ⟨objs, gs, h1, h2, h3⟩ := C86_vertices_roundtrip packed (List.range n)
    (fun i hi => by have := List.mem_range.1 hi; omega) (by simpa [hlen] using small)
  refine ⟨objs, gs, h1, ?_⟩
  have e1 : ((List.range n).filterMap fun i => objs[i]?) = objs := by
    have hl : objs.length = n := by omega
    rw [← hl]
    exact filterMap_range objs
  have e2 : (List.range n).flatMap (vert vs m.vertices) = m.vertices := by
    rw [List.flatMap_def]; exact verts_flatten hlen
  rw [e1, e2, List.length_range, ← hn] at h3
  exact h3

/-- Vertices 2, 0, 0 of three. -/
example : Packed 4 (oldMovable (flt 0) upto12) ∧
    (getVertices (oldMovable (flt 0) upto12)).toOption.map (fun objs =>
      ((updateVertices (oldMovable (flt 0) upto12) ([2, 0, 0].filterMap fun i => objs[i]?)).1.vertices,
       (updateVertices (oldMovable (flt 0) upto12) ([2, 0, 0].filterMap fun i => objs[i]?)).1.vertnum)) =
    some ([9, 10, 11, 12, 1, 2, 3, 4, 1, 2, 3, 4].map flt, 3) :=
  ⟨oldMovable_packed _ _ rfl, by decide +kernel⟩

/-! ## C87: translate on a mesh in order -/

/-- On a packed mesh whose materials tile the vertex array and have bounds, `translate(d)` succeeds.
Every vertex keeps its floats, but for the position, to which `d` is added; bounds grow to the new
positions and nothing else changes.  Further elements of `d` are ignored. -/
theorem C87_translate_tiled [LawfulLt F] {vs o : Nat} {m : OldMesh F} (packed : Packed vs m)
    (tiled : OldTiled m) (pos : Float3At m.vertformat m.vattrs 0 o) (bounds : HasBounds m)
    (small : m.vertices.length ≤ 2 ^ 53) (d : Vec3 F) (rest : List F) :
    ∃ l gs, oldTranslate m (d.x :: d.y :: d.z :: rest) =
        ({ m with vertices := l, vertsList := false, geoms := gs }, none) ∧
      l.length = m.vertices.length ∧
      (∀ i : Nat, (i : Int) < m.vertnum → vert vs l i = movedVert o d (vert vs m.vertices i)) ∧
      BoundsGrown vs o { m with vertices := l, vertsList := false } gs := by
  obtain ⟨n, hn, hlen⟩ := packed.num
  have hid : m.ids.length = n := by rw [tiled.ids hn, List.length_range]
  obtain ⟨h1, h2⟩ := oldEdit_eq packed tiled.exist (by rw [hid, ← hlen]; exact small)
    (translate_step packed.table pos d rest)
  rw [hid] at h1 h2
  have hp' : Packed vs { m with
      vertices := (editedVerts vs (movedVert o d) m).flatten, vertsList := false, vertnum := n } :=
    ⟨packed.table, by simp only [h2]; push_cast; rfl⟩
  obtain ⟨gs, h3, h4⟩ := oldUpdateBoundaries_eq hp' pos bounds
    (fun a ha => ⟨(tiled.exist a ha).1, (tiled.exist a ha).2.1⟩)
  refine ⟨(editedVerts vs (movedVert o d) m).flatten, gs, ?_, by rw [h2, hlen], ?_, ?_⟩
  · have : oldTranslate m (d.x :: d.y :: d.z :: rest) =
        oldEdit (oldTranslateVertex (d.toList ++ rest)) m := rfl
    rw [this, h1, h3, hn]
  · intro i hi
    rw [editedVerts_tiled tiled hn]
    have hv : ∀ w ∈ (verts vs n m.vertices).map (movedVert o d), w.length = vs := by
      intro w hw
      obtain ⟨w', hw', rfl⟩ := List.mem_map.1 hw
      obtain ⟨j, hj, rfl⟩ := List.mem_map.1 hw'
      have hj := List.mem_range.1 hj
      have : (j + 1) * vs ≤ n * vs := Nat.mul_le_mul_right _ hj
      rw [Nat.add_mul, Nat.one_mul] at this
      unfold movedVert vert
      rw [List.length_mapIdx, List.length_take, List.length_drop]
      omega
    rw [vert_flatten _ hv i (by simp [verts]; omega)]
    simp [verts]
  · rw [← hn] at h4; exact h4

end

/-- Moving by (10, 20, 30). -/
example : (oldTranslate (oldMovable (flt 0) upto12) [flt 10, flt 20, flt 30]).2 = none ∧
    (oldTranslate (oldMovable (flt 0) upto12) [flt 10, flt 20, flt 30]).1.vertices =
      [11, 22, 33, 4, 15, 26, 37, 8, 19, 30, 41, 12].map flt ∧
    (oldTranslate (oldMovable (flt 0) upto12) [flt 10, flt 20, flt 30]).1.mats.map (·.mmax) =
      [some ⟨flt 15, flt 26, flt 37⟩, some ⟨flt 19, flt 30, flt 41⟩] ∧
    Packed 4 (oldMovable (flt 0) upto12) ∧ OldTiled (oldMovable (flt 0) upto12) ∧
    HasBounds (oldMovable (flt 0) upto12) :=
  ⟨by decide +kernel, by decide +kernel, by decide +kernel, oldMovable_packed _ _ rfl,
    oldMovable_tiled _ _, oldMovable_bounds _ _⟩

/-- The bounds keep what they once covered: in this mesh all vertices lie above the minimum. -/
example : (oldTranslate (oldMovable (flt 0) upto12) [flt 10, flt 20, flt 30]).1.mats.map (·.mmin) =
    [some ⟨flt 0, flt 0, flt 0⟩, some ⟨flt 0, flt 0, flt 0⟩] := by decide +kernel

/-- One vertex, moved by either module. -/
theorem movedVert_eq {vs o : Nat} (fits : o + 3 ≤ vs) (d : Vec3 F64)
    (nz : ∀ t ∈ d.toList, t ≠ F64.zero.negate) (w : List F64) (hw : w.length = vs) :
    movedVert o d w = movedAll vs o d.toList w := by
  unfold movedVert movedAll
  apply List.ext_getElem
  · simp
  · intro i h1 h2
    have hi : i < vs := by simpa [hw] using h1
    rw [List.getElem_mapIdx, List.getElem_mapIdx, Nat.mod_eq_of_lt hi]
    unfold moved
    have hadd : ∀ x t, t ∈ d.toList →
        FArith.add (FArith.add FArith.zero x) t = FArith.add (F := F64) x t :=
      fun x t ht => add_zero_first x t (.inr (nz t ht))
    by_cases h0 : i = o
    · subst h0
      rw [if_pos rfl, if_pos le_rfl, hadd _ _ (by simp [Vec3.toList]), Nat.sub_self]
      rfl
    rw [if_neg h0]
    by_cases h1 : i = o + 1
    · subst h1
      rw [if_pos rfl, if_pos (by omega), hadd _ _ (by simp [Vec3.toList]), Nat.add_sub_cancel_left]
      rfl
    rw [if_neg h1]
    by_cases h2 : i = o + 2
    · subst h2
      rw [if_pos rfl, if_pos (by omega), hadd _ _ (by simp [Vec3.toList]), Nat.add_sub_cancel_left]
      rfl
    rw [if_neg h2]
    split
    · rw [List.getElem?_eq_none (by simp [Vec3.toList]; omega)]
    · rfl

/-- A mesh the package loaded: both modules compute the same vertex array, unless `d` contains
`-0.0`. -/
theorem C87_same_as_package {vs o : Nat} {m : Mesh F64} {a : VAttr} (packed : Packed vs m.old)
    (tiled : TiledVerts vs m) (first : FirstPosition m.vattrs a) (start : StartsAt m.vertformat a o)
    (pos : Float3At m.vertformat (m.vattrs.map VAttr.signed) 0 o) (small : m.vertices.length ≤ 2 ^ 53)
    (d : Vec3 F64) (nz : ∀ t ∈ d.toList, t ≠ F64.zero.negate) :
    (oldTranslate m.old d.toList).1.vertices = (translate m d.toList).1.vertices ∧
      (translate m d.toList).2 = none := by
  obtain ⟨n, hn, hlen⟩ := packed.num
  have ht := old_tiled tiled packed
  have hid : m.old.ids.length = n := by rw [ht.ids hn, List.length_range]
  have hlen' : m.vertices.length = n * vs := hlen
  obtain ⟨h1, -⟩ := oldEdit_eq packed ht.exist (by rw [hid, ← hlen']; exact small)
    (translate_step packed.table pos d [])
  have fits : o + 3 ≤ vs := packed.table.packs.fits packed.table.format pos
  have h2 : oldTranslate m.old d.toList = oldEdit (oldTranslateVertex (d.toList ++ [])) m.old := by
    rw [List.append_nil]; rfl
  rw [translate_tiled tiled first start (by simpa [Vec3.toList] using fits)]
  refine ⟨?_, rfl⟩
  obtain ⟨gs, h3⟩ := oldUpdateBoundaries_fst { m.old with
    vertices := (editedVerts vs (movedVert o d) m.old).flatten, vertsList := false
    vertnum := m.old.ids.length }
  rw [h2, h1, h3, editedVerts_tiled ht hn]
  have hall : ∀ w ∈ verts vs n m.old.vertices, w.length = vs := by
    intro w hw
    obtain ⟨j, hj, rfl⟩ := List.mem_map.1 hw
    have hj := List.mem_range.1 hj
    have : (j + 1) * vs ≤ n * vs := Nat.mul_le_mul_right _ hj
    rw [Nat.add_mul, Nat.one_mul] at this
    unfold vert
    rw [List.length_take, List.length_drop]
    omega
  simp only
  rw [List.map_congr_left fun w hw => movedVert_eq fits d nz w (hall w hw),
    ← movedAll_flatten _ (fun w hw => by rw [hall w hw]), verts_flatten hlen]
  rfl

/-- With `-0.0` they differ: `-0.0` stays `-0.0` in the package and becomes `0.0` here. -/
theorem C87_minus_zero : ∃ (m : Mesh F64) (d : Vec3 F64), Packed 4 m.old ∧ TiledVerts 4 m ∧
    FirstPosition m.vattrs ⟨0, 0, 2, 0⟩ ∧
    (oldTranslate m.old d.toList).1.vertices ≠ (translate m d.toList).1.vertices :=
  ⟨movable (flt 0) (List.replicate 12 F64.zero.negate),
    ⟨F64.zero.negate, F64.zero.negate, F64.zero.negate⟩, ⟨posTable, rfl⟩, movable_tiled _ _ rfl,
    posAttrs_first, by decide +kernel⟩

example : Packed 4 (movable (flt 0) upto12).old ∧ TiledVerts 4 (movable (flt 0) upto12) ∧
    (translate (movable (flt 0) upto12) [flt 10, flt 20, flt 30]).1.vertices =
      [11, 22, 33, 4, 15, 26, 37, 8, 19, 30, 41, 12].map flt :=
  ⟨⟨posTable, rfl⟩, movable_tiled _ _ rfl, by decide +kernel⟩

/-! ## C88: translate on any packed mesh -/

section
variable [FArith F]

/-- In general the new vertex array is made of the vertices of the materials, material by material,
and `vertnum` is their number, while the materials keep their ranges.  A vertex no material has is
gone; one that materials have `k` times is moved `k` times. -/
theorem C88_translate_general {vs o : Nat} {m : OldMesh F} (packed : Packed vs m)
    (exist : VertsExist m) (pos : Float3At m.vertformat m.vattrs 0 o)
    (small : m.ids.length * vs ≤ 2 ^ 53) (d : Vec3 F) (rest : List F) :
    ∃ gs, (oldTranslate m (d.x :: d.y :: d.z :: rest)).1 = { m with
      vertices := m.ids.flatMap fun i => (movedVert o d)^[m.ids.count i] (vert vs m.vertices i)
      vertsList := false, vertnum := m.ids.length, geoms := gs } := by
  obtain ⟨h1, -⟩ := oldEdit_eq packed exist small (translate_step packed.table pos d rest)
  obtain ⟨gs, h2⟩ := oldUpdateBoundaries_fst { m with
    vertices := (editedVerts vs (movedVert o d) m).flatten, vertsList := false
    vertnum := m.ids.length }
  refine ⟨gs, ?_⟩
  have : oldTranslate m (d.x :: d.y :: d.z :: rest) =
      oldEdit (oldTranslateVertex (d.toList ++ rest)) m := rfl
  rw [this, h1, h2, List.flatMap_def]
  rfl

end

/-- Three vertices; the first material has vertices 1 and 2, the second vertex 1 again. -/
def shared : OldMesh F64 :=
  (meshOf (flt 0) posAttrs 16 3 [[(1, 2, 0, 3)], [(1, 1, 3, 3)]] upto12 [0, 1, 1, 0, 0, 0]).old.bound
    ⟨flt 0, flt 0, flt 0⟩ ⟨flt 0, flt 0, flt 0⟩

/-- Vertex 0 is dropped, vertex 1 moved twice, and what was vertex 1 is now vertex 0: the materials,
with ranges as before, have other vertices. -/
example : Packed 4 shared ∧ shared.ids = [1, 2, 1] ∧
    (oldTranslate shared [flt 10, flt 20, flt 30]).1.vertices =
      [25, 46, 67, 8, 19, 30, 41, 12, 25, 46, 67, 8].map flt ∧
    (oldTranslate shared [flt 10, flt 20, flt 30]).1.vertnum = 3 ∧
    (oldTranslate shared [flt 10, flt 20, flt 30]).1.mats.map (·.vstart) = [1, 1] :=
  ⟨⟨posTable, rfl⟩, by decide, by decide +kernel, by decide +kernel, by decide +kernel⟩

/-! ## C89: bounds only grow -/

section
variable [FArith F]

/-- On a packed mesh with bounds and vertex ranges that are not negative `update_boundaries` succeeds.
Afterwards the positions of its vertices are inside the bounds of every material and lod; no bound has
moved inwards; every component of a bound is as before or that of such a position; nothing else has
changed. -/
theorem C89_bounds_grow [LawfulLt F] {vs o : Nat} {m : OldMesh F} (packed : Packed vs m)
    (pos : Float3At m.vertformat m.vattrs 0 o) (bounds : HasBounds m)
    (nonneg : ∀ a ∈ m.mats, 0 ≤ a.vstart ∧ 0 ≤ a.vnum) :
    ∃ gs, oldUpdateBoundaries m = ({ m with geoms := gs }, none) ∧ BoundsGrown vs o m gs :=
  oldUpdateBoundaries_eq packed pos bounds nonneg

end

/-- Moved there and back, the bounds still reach to where the mesh has been: unlike the package,
which computes them anew. -/
theorem C89_not_recomputed : ∃ (m : OldMesh F64) (d e : List F64), Packed 4 m ∧ OldTiled m ∧
    HasBounds m ∧ (oldUpdateBoundaries m).1 = m ∧
    (oldTranslate (oldTranslate m d).1 e).1.vertices = m.vertices ∧
    (oldTranslate (oldTranslate m d).1 e).1.mats.map (·.mmax) ≠ m.mats.map (·.mmax) :=
  ⟨(oldUpdateBoundaries (oldMovable (flt 0) upto12)).1, [flt 10, flt 20, flt 30],
    [(flt 10).negate, (flt 20).negate, (flt 30).negate], ⟨posTable, rfl⟩,
    ⟨by decide +kernel, starts_of (by decide +kernel), by decide +kernel⟩,
    by unfold HasBounds; decide +kernel, by decide +kernel, by decide +kernel, by decide +kernel⟩

/-! ## C90: meshes without bounds -/

section
variable [FArith F]

/-- A mesh with a material that has no bounds, as skinned meshes and meshes of versions other than 11
are loaded: `translate` raises a `TypeError`, but the vertices have been moved. -/
theorem C90_type_error_after_change {vs o : Nat} {m : OldMesh F} (packed : Packed vs m)
    (tiled : OldTiled m) (pos : Float3At m.vertformat m.vattrs 0 o)
    (none : ∃ a ∈ m.mats, a.mmin = none ∨ a.mmax = none)
    (small : m.vertices.length ≤ 2 ^ 53) (d : Vec3 F) (rest : List F) :
    (oldTranslate m (d.x :: d.y :: d.z :: rest)).2 = some .typeError ∧
    (oldTranslate m (d.x :: d.y :: d.z :: rest)).1.vertices =
      ((List.range m.vertnum.toNat).flatMap fun i => movedVert o d (vert vs m.vertices i)) := by
  obtain ⟨n, hn, hlen⟩ := packed.num
  have hid : m.ids.length = n := by rw [tiled.ids hn, List.length_range]
  obtain ⟨h1, h2⟩ := oldEdit_eq packed tiled.exist (by rw [hid, ← hlen]; exact small)
    (translate_step packed.table pos d rest)
  rw [hid] at h1 h2
  have hp' : Packed vs { m with
      vertices := (editedVerts vs (movedVert o d) m).flatten, vertsList := false, vertnum := n } :=
    ⟨packed.table, by simp only [h2]; push_cast; rfl⟩
  have h3 := oldUpdateBoundaries_typeError hp' pos none
  have : oldTranslate m (d.x :: d.y :: d.z :: rest) =
      oldEdit (oldTranslateVertex (d.toList ++ rest)) m := rfl
  obtain ⟨gs, h4⟩ := oldUpdateBoundaries_fst { m with
    vertices := (editedVerts vs (movedVert o d) m).flatten, vertsList := false, vertnum := n }
  rw [this, h1]
  refine ⟨h3, ?_⟩
  rw [h4, editedVerts_tiled tiled hn, hn, Int.toNat_natCast, List.flatMap_def]
  unfold verts
  rw [List.map_map]
  rfl

end

/-- Which meshes have bounds: of a file that loads, all materials have them if and only if there are
none, or the mesh is not skinned and of version 11. -/
theorem C90_loaded_bounds [FCodec F] (pl : Plat) (k : Kind) (file : Bytes) (m : Mesh F)
    (hm : load pl k file = .ok m) :
    HasBounds m.old ↔ m.mats = [] ∨ (k.isSkinned = false ∧ m.head.version = 11) := by
  unfold HasBounds
  rw [old_mats]
  have key : ∀ a ∈ m.mats, (a.mmin.isSome ↔ k.isSkinned = false ∧ m.head.version = 11) ∧
      (a.mmax.isSome ↔ k.isSkinned = false ∧ m.head.version = 11) := by
    intro a ha
    obtain ⟨g, hg, ha⟩ := List.mem_flatMap.1 ha
    obtain ⟨l, hl, ha⟩ := List.mem_flatMap.1 ha
    exact ((C08_kind_and_version_decide_fields pl k file m hm g hg l hl).2.2.2 a ha).2
  constructor
  · intro h
    cases hmm : m.mats with
    | nil => exact .inl rfl
    | cons a as =>
      right
      have ha : a ∈ m.mats := by rw [hmm]; simp
      exact (key a ha).1.1 (Option.isSome_iff_ne_none.2 (h a ha).1)
  · rintro (h | h) a ha
    · rw [h] at ha; simp at ha
    · exact ⟨Option.isSome_iff_ne_none.1 ((key a ha).1.2 h),
        Option.isSome_iff_ne_none.1 ((key a ha).2.2 h)⟩

/-- The mesh of version 10 that the package translates without complaint (C22). -/
example : Packed 4 (movable (flt 0) upto12).old ∧ OldTiled (movable (flt 0) upto12).old ∧
    (∃ a ∈ (movable (flt 0) upto12).old.mats, a.mmin = none ∨ a.mmax = none) ∧
    (oldTranslate (movable (flt 0) upto12).old [flt 10, flt 20, flt 30]).2 = some .typeError :=
  ⟨⟨posTable, rfl⟩, old_tiled (movable_tiled _ _ rfl) ⟨posTable, rfl⟩, by decide, by decide +kernel⟩

end Bf2
