import Verif.RepoTests
import Verif.ColMesh
import Verif.OldEdit

/-!
# The assertions of two tests in `/repo/deprecated`

`test_can_translate_colmesh` (`tests_colmesh_edit.py`) and `test_can_translate_mesh`
(`tests_vismesh_edit.py`), as functions of the meshes they compare; values as in `RepoTests`.
-/

namespace Bf2

section
variable {φ : Type}

/-- `Vec3.__eq__`, `modVec3.py:9-10` -/
def eqVec3 (a b : Vec3 F64) : Bool := a.x.feq b.x && a.y.feq b.y && a.z.feq b.z

/-- `assertEqual(len(xs), len(ys)); for i, x in enumerate(xs): y = ys[i]; ...` -/
def assertPairs {α β : Type} (f : α → β → Except Err Bool) (xs : List α) (ys : List β) :
    Except Err Bool :=
  thenAssert (xs.length = ys.length) <|
  assertEach (fun p : Nat × α =>
    match ys[p.1]? with
    | none => .error .indexError
    | some y => f p.2 y) (numbered xs)

/-- `tests_colmesh_edit.py:39-45`: two lods.  (The comparison of the numbers of faces, which precedes the
loop over the vertices, is made after it here; neither raises.) -/
def assertMovedLod (offset : Vec3 F64) (lod old : ColLod F64 φ) : Except Err Bool :=
  match assertPairs (fun v w => .ok (eqVec3 v (w.plus offset))) lod.vertices old.vertices with
  | .ok true => .ok (lod.faces.length = old.faces.length)
  | r => r

/-- `test_can_translate_colmesh`, `tests_colmesh_edit.py:30-45`, on the mesh after the move and the mesh
before: geoms, subgeoms, lods. -/
def colTranslateTest (offset : Vec3 F64) (m old : ColMesh F64 φ) : Except Err Bool :=
  assertPairs (fun g go : ColGeom F64 φ => assertPairs (fun s so : ColSub F64 φ =>
    assertPairs (assertMovedLod offset) s.lods so.lods) g.subgeoms go.subgeoms) m.geoms old.geoms

end

/-- `test_can_translate_mesh`, `tests_vismesh_edit.py:69-76`, on the mesh after the move and the mesh
before.  What line 76 asserts is a generator object, which counts as true whatever it would generate. -/
def oldTranslateTest {F : Type} (m old : OldMesh F) : Except Err Bool :=
  match getVertices m with
  | .error e => .error e
  | .ok vertices =>
    match getVertices old with
    | .error e => .error e
    | .ok verticesOld =>
      assertEach (fun v : Nat × VObj F =>
        match v.2 0 with
        | none => .error .attributeError
        | some _ =>
          match verticesOld[v.1]? with
          | none => .error .indexError
          | some w =>
            match w 0 with
            | none => .error .attributeError
            | some _ => .ok true) (numbered vertices)

end Bf2
