import Verif.OldTests
import Verif.OldMesh
import Verif.FloatCodec

/-!
# The tests of `/repo/deprecated/tests_vismesh_generator.py`

As in `RepoTests`: `.ok true` if no assertion fails, `.ok false` if one does, and otherwise the exception
that the test ends with.
-/

namespace Bf2

section
variable {F : Type}

/-- `tests_vismesh_generator.py:20-33`: one attribute of vertex `i`, whose object is `v`.  `eq` is how two
floats of the array compare in a tuple: equal if they are the same object or `==`. -/
def assertVertexAttr (eq : F → F → Bool) (m : OldMesh F) (vertsize : Int) (i : Nat) (v : VObj F) (a : VAttr) :
    Except Err Bool :=
  match oldAttr m.vertformat a with
  | .error e => .error e
  | .ok o =>
    match v a.usage with
    | none => .ok false
    | some value =>
      match oldDeclLen a.vartype with
      | .error e => .error e
      | .ok n =>
        thenAssert (value.length = n) <|
        .ok (assertLists eq value (pySlice m.vertices (i * vertsize + o) (i * vertsize + o + n)))

/-- Lines 19-33: vertex `i`. -/
def assertVertex (eq : F → F → Bool) (m : OldMesh F) (i : Nat) : Except Err Bool :=
  match getVertex m i with
  | .error e => .error e
  | .ok v => assertEach (assertVertexAttr eq m (intTrueDiv m.vertstride m.vertformat) i v) m.vattrs

/-- `test_can_serialize_vertices`, lines 14-36. -/
def serializeTest (eq : F → F → Bool) (m : OldMesh F) : Except Err Bool :=
  if m.vertformat = 0 then .error .zeroDivisionError
  else
    match assertEach (assertVertex eq m) (List.range m.vertnum.toNat) with
    | .ok true => .ok (decide ((m.vertnum.toNat : Int) = m.vertnum))
    | r => r

end

/-- `assertEqual(vmesh.vertices, vmesh_clone.vertices)`: a tuple is equal to no list. -/
def sameVertices (m clone : OldMesh F64) : Bool :=
  m.vertsList == clone.vertsList && assertLists F64.feq m.vertices clone.vertices

/-- `test_can_deserialize_materials_vertices`, lines 38-52; the clone is a mesh made as `m` was.  The list of
the vertices of the materials, lines 43-48, is not used. -/
def deserializeTest (m : OldMesh F64) : Except Err Bool :=
  match getVertices m with
  | .error e => .error e
  | .ok vertices =>
    match updateVertices m vertices with
    | (_, some e) => .error e
    | (m', none) => .ok (sameVertices m' m)

/-- `test_can_deserialize_materials_vertices_pavement`, lines 57-71, on the mesh loaded, if the copy can be
opened for writing. -/
def deserializeFileTest (pl : Plat) (m : OldMesh F64) : Except Err Bool :=
  match getVertices m with
  | .error e => .error e
  | .ok objects =>
    match updateVertices m (m.mats.flatMap fun a => pySlice objects a.vstart (a.vstart + a.vnum)) with
    | (_, some e) => .error e
    | (m', none) =>
      match (oldSave pl m').err with
      | some e => .error e
      | none => .ok (sameVertices m' m)

end Bf2
