import Verif.Equal
import Verif.OldEdit

/-!
# The assertions of the tests in `/repo/tests`

What the tests of the package assert, as functions of the meshes they compare: `.ok true` if no assertion
fails, `.ok false` if one does, and the exception that a test ends with otherwise.  Where a test would stop
at the first assertion that fails and a later one would raise, the model stops as well.

Not here: the assertions about one sample file with numbers from that file (`test_visiblemesh_read.py`),
which are evaluated beside C121.
-/

namespace Bf2

/-- Assertions one after the other. -/
def thenAssert (a : Bool) (rest : Except Err Bool) : Except Err Bool := if a then rest else .ok false

/-- `assertEqual` of two lists (tuples): as long as each other, and equal in each place. -/
def assertLists {α : Type} (eq : α → α → Bool) : List α → List α → Bool
  | [], [] => true
  | x :: xs, y :: ys => eq x y && assertLists eq xs ys
  | _, _ => false

/-! ## test_visiblemesh_write.py -/

/-- `test_can_write_lods`, lines 48-52 (and 63-67): the loop over the lods of one geom. -/
def assertLods (s m : Geom F64) : Except Err Bool := eqEach eqLod s.lods m.lods

/-- All tests of `test_visiblemesh_write_staticmesh`, lines 19-52, on the mesh loaded from the file that was
exported, and the mesh that was exported. -/
def writeTests (s m : Mesh F64) : Except Err Bool :=
  thenAssert (eqHead s.head m.head) <|
  thenAssert (s.u1 = m.u1) <|
  thenAssert (s.geomnum = m.geomnum) <|
  thenAssert (assertLists eqGeom s.geoms m.geoms) <|
  thenAssert (assertLists (fun g h => g.lodnum = h.lodnum) s.geoms m.geoms) <|
  thenAssert (s.vertattribnum = m.vertattribnum) <|
  thenAssert (assertLists eqVAttr s.vattrs m.vattrs) <|
  thenAssert (s.vertformat = m.vertformat) <|
  thenAssert (s.vertstride = m.vertstride) <|
  thenAssert (s.vertnum = m.vertnum) <|
  thenAssert (assertLists F64.feq s.vertices m.vertices) <|
  thenAssert (s.indexnum = m.indexnum) <|
  thenAssert (s.index = m.index) <|
  thenAssert (s.u2 = m.u2) <|
  eqEach assertLods s.geoms m.geoms

/-! ## test_visiblemesh_edit.py: translate -/

section
variable {F : Type} [FArith F]

/-- `test_visiblemesh_edit.py:119-134`: one vertex.  `old` are the vertices before, `m` is the mesh
after; `eq` is `==`.  Both objects get their attributes in one loop, from buffers of the same places. -/
def assertMovedVertex (eq : F → F → Bool) (old : List F) (m : Mesh F) (offset : List F) (mat : Mat F)
    (vertId : Nat) : Except Err Bool :=
  match vertexSize m.vattrs with
  | .error e => .error e
  | .ok vs =>
    let start := (mat.vstart + vertId) * vs
    match foldE (vertexAttrs m.vertformat (pySlice m.vertices start (start + vs))) none m.vattrs,
        foldE (vertexAttrs m.vertformat (pySlice old start (start + vs))) none m.vattrs with
    | .error e, _ => .error e
    | _, .error e => .error e
    | .ok (some new), .ok (some old) =>
      .ok (assertLists eq ((new.zip offset).map fun p => FArith.sub p.1 p.2) old)
    | .ok _, .ok _ => .error .attributeError

/-- A loop of assertions. -/
def assertEach {α : Type} (f : α → Except Err Bool) : List α → Except Err Bool
  | [] => .ok true
  | a :: as =>
    match f a with
    | .ok true => assertEach f as
    | r => r

/-- `test_can_translate_staticmesh`, lines 115-134. -/
def translateTest (eq : F → F → Bool) (old : List F) (m : Mesh F) (offset : List F) : Except Err Bool :=
  assertEach (fun g => assertEach (fun l : Lod F => assertEach (fun mat : Mat F =>
    assertEach (assertMovedVertex eq old m offset mat) (List.range mat.vnum.toNat)) l.materials) g.lods)
    m.geoms

end

/-! ## test_visiblemesh_edit.py: merge -/

section
variable {F : Type}

/-- `vmesh.geoms[g].lods[l].materials[i]` -/
def matAt (m : Mesh F) (g l i : Nat) : Except Err (Mat F) :=
  match m.geoms[g]? with
  | none => .error .indexError
  | some x =>
    match x.lods[l]? with
    | none => .error .indexError
    | some y =>
      match y.materials[i]? with
      | none => .error .indexError
      | some a => .ok a

/-- `test_visiblemesh_edit.py:151-154`: one material. -/
def assertMergedMat (other old : Mesh F) (g l : Nat) (p : Nat × Mat F) : Except Err Bool :=
  match matAt other g l p.1, matAt old g l p.1 with
  | .error e, _ => .error e
  | _, .error e => .error e
  | .ok b, .ok a => .ok (p.2.vnum = b.vnum + a.vnum ∧ p.2.inum = b.inum + a.inum)

/-- `enumerate` -/
def numbered {α : Type} (l : List α) : List (Nat × α) := (List.range l.length).zip l

/-- `test_can_merge_staticmesh`, lines 148-154, on the mesh after the merge, the mesh that was merged
into it, and the mesh before. -/
def mergeTest (m other old : Mesh F) : Except Err Bool :=
  assertEach (fun g : Nat × Geom F => assertEach (fun l : Nat × Lod F =>
    assertEach (assertMergedMat other old g.1 l.1) (numbered l.2.materials)) (numbered g.2.lods))
    (numbered m.geoms)

/-! ## test_visiblemesh_edit.py: change_geoms_order -/

/-- `get_geom_vertices`, lines 37-42. -/
def geomVertices (m : Mesh F) (g : Nat) : Except Err (List F) :=
  match vertexSize m.vattrs with
  | .error e => .error e
  | .ok vs =>
    match matAt m g 0 0 with
    | .error e => .error e
    | .ok a =>
      match m.geoms[g]? with
      | none => .error .indexError
      | some x =>
        let n := (x.lods.map fun l => (l.materials.map Mat.vnum).sum).sum
        .ok (pySlice m.vertices (a.vstart * vs) (a.vstart * vs + n))

/-- `[lod.materials[0].vnum for lod in vmesh.geoms[g].lods]`, and with `inum`. -/
def firstMats (m : Mesh F) (g : Nat) : Except Err (List (Mat F)) :=
  match m.geoms[g]? with
  | none => .error .indexError
  | some x => mapE (fun l : Lod F => match l.materials[0]? with
    | none => .error .indexError
    | some a => .ok a) x.lods

/-- Lines 55-62, for the first material of one lod. -/
def assertOrderedMat (old m : Mesh F) (l : Nat) : Except Err Bool :=
  match matAt m 1 l 0, matAt old 2 l 0 with
  | .error e, _ => .error e
  | _, .error e => .error e
  | .ok x, .ok y => .ok (x.vnum = y.vnum ∧ x.inum = y.inum)

/-- `test_edit_order_mesh_data_updated`, lines 46-68, on the mesh before and after.  The numbers that
lines 55-62 expect are those that `setUp` (lines 17-30) has checked of geom 2 before.  The floats of line
68 are the same objects in both lists, so they are equal whenever they are the same floats. -/
def orderTest [DecidableEq F] (old m : Mesh F) : Except Err Bool :=
  match geomVertices old 2, matAt m 1 0 0, matAt m 0 0 0, firstMats m 0 with
  | .error e, _, _, _ => .error e
  | _, .error e, _, _ => .error e
  | _, _, .error e, _ => .error e
  | _, _, _, .error e => .error e
  | .ok vertices2, .ok b, .ok a, .ok firsts =>
    thenAssert (b.vstart = a.vstart + (firsts.map Mat.vnum).sum) <|
    thenAssert (b.istart = a.istart + (firsts.map Mat.inum).sum) <|
    match assertEach (assertOrderedMat old m) [0, 1, 2] with
    | .ok true =>
      thenAssert (m.vertices.length = old.vertices.length) <|
      match geomVertices m 1 with
      | .error e => .error e
      | .ok vertices1 => .ok (vertices2 = vertices1)
    | r => r

end

end Bf2
