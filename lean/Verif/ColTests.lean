import Verif.ColSpec
import Verif.FloatCodec
import Verif.OldBox
import Verif.RepoTests

/-!
# The tests of `/repo/deprecated/tests_colmesh_write.py` and the merge test of `tests_colmesh_edit.py`

As in `RepoTests`: `.ok true` if no assertion fails, `.ok false` if one does, and otherwise the exception
that the test ends with.  The names of the files are parameters.
-/

namespace Bf2

section
variable {F : Type} [FCodec F]

/-- `colmesh = modcolmesh.ColMesh(); colmesh.load(path)` -/
def loadColPath (pl : Plat) (fs : FS) (path : Str) : Except Err (ColMesh F ColFace) :=
  match fs.read path with
  | .error e => .error e
  | .ok content => loadCol pl content

/-- `tests_colmesh_write.py:18-22` and `36-40`: the directory is made, the file opened, and `w` written. -/
def writeInto (fs : FS) (name : Str) (w : Out) : FS × Option Err :=
  match fs.ensureDir name with
  | (fs1, some e) => (fs1, some e)
  | (fs1, none) =>
    match fs1.openWrite name with
    | .error e => (fs1, some e)
    | .ok (fs2, l) => (fs2.set l (.file w.bytes), w.err)

/-- `modcolmesh.py:437-439` -/
def writeColHeader (pl : Plat) (m : ColMesh F ColFace) : Out := .all [writeLong pl m.u1, writeLong pl m.version]

/-- `modcolmesh.py:433-435` -/
def readColHeader (pl : Plat) : P (Int × Int) := do
  let u1 ← readLong pl
  let version ← readLong pl
  pure (u1, version)

end

/-- `test_can_write_header`, `tests_colmesh_write.py:13-29` -/
def colHeaderTest (pl : Plat) (fs : FS) (path clone : Str) : Except Err Bool :=
  match loadColPath (F := F64) pl fs path with
  | .error e => .error e
  | .ok m =>
    match writeInto fs clone (writeColHeader pl m) with
    | (_, some e) => .error e
    | (fs', none) =>
      match fs'.read clone with
      | .error e => .error e
      | .ok content =>
        match readColHeader pl content with
        | .error e => .error e
        | .ok (h, _) => thenAssert (h.1 = m.u1) (.ok (decide (h.2 = m.version)))

/-- `test_can_write_geoms`, `tests_colmesh_write.py:31-47` -/
def colGeomsTest (pl : Plat) (fs : FS) (path clone : Str) : Except Err Bool :=
  match loadColPath (F := F64) pl fs path with
  | .error e => .error e
  | .ok m =>
    match writeInto fs clone (writeCol pl m) with
    | (_, some e) => .error e
    | (fs', none) =>
      match loadColPath (F := F64) pl fs' clone with
      | .error e => .error e
      | .ok m2 => thenAssert (m2.geomnum = m.geomnum) (listEq eqColGeom m2.geoms m.geoms)

/-- `test_can_create_colmesh_from_mock`, `tests_colmesh_write.py:49-56` -/
def colMockTest (pl : Plat) (fs : FS) (clone : Str) : Except Err Bool :=
  match saveCol pl fs mockColBox clone with
  | (_, some e) => .error e
  | (fs', none) =>
    match loadColPath (F := F64) pl fs' clone with
    | .error e => .error e
    | .ok _ => .ok true

/-- `test_can_merge_geoms`, `tests_colmesh_edit.py:50-60`; `a` is the loaded mesh and `b` its deep copy, with
the addresses of their faces, as in `ColPrograms`.  There is no assertion. -/
def colMergeTest (pl : Plat) (fs : FS) (clone : Str) (h : Heap) (a b : ColMesh F64 Nat) : Except Err Bool :=
  match colMerge h a (colTranslate ⟨F64.ofRat false 1, F64.ofRat false 0, F64.ofRat false 0⟩ b) with
  | (_, _, some e) => .error e
  | (h', c, none) =>
    match saveCol pl fs (c.map id h') clone with
    | (_, some e) => .error e
    | (_, none) => .ok true

end Bf2
