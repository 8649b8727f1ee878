import Verif.ColMesh
import Verif.ColSpec
import Verif.VecOps
import Verif.OldMod

/-!
# `deprecated/mesh_merge.py`

The script loads a collision mesh, and is meant to put a second one beside it (a deep copy, moved), to
centre the whole and to save it under a new name.  It stops at a bare `raise` left in after printing the
distance.

Simplifications: the distance `diff` (`position2 - position1`, two constants) is a parameter; what is
printed is not modelled; in the part that is never reached the root of the mod is a parameter too.  Of `copy.deepcopy` only the
identity of the face objects matters: the two meshes are given with the addresses of their faces.
-/

namespace Bf2

section
variable {F : Type} [FCodec F]

/-- `mesh_merge.py:13-23` -/
def dividerPath (root : Str) : Str :=
  pathJoin root
    "objects/staticobjects/pr/citybuildings/pavement/divider/24m_1/Meshes/24m_1.collisionmesh".toList

/-- `mesh_merge.py:56-66` -/
def mergedDividerPath (root : Str) : Str :=
  pathJoin root
    "objects/staticobjects/pr/citybuildings/pavement/divider/24m_1_merge/meshes/24m_1_merge.collisionmesh".toList

variable (F) in
/-- `main()`, `mesh_merge.py:12-67`, as it is written: `raise` in line 37 without an active exception
raises `RuntimeError`. -/
def meshMerge (pl : Plat) (fs : FS) (cwd : Str) : FS × Option Err :=
  match findModRoot cwd with
  | .error e => (fs, some e)
  | .ok root =>
    match constructCol (F := F) pl fs (some (dividerPath root)) with
    | .error e => (fs, some e)
    | .ok _ => (fs, some .runtimeError)

end

section
variable {F : Type} [FArith F] [FDiv F]

/-- `col0.min`, `col0.max` and `center_offset`, `mesh_merge.py:43-44` -/
def centerOffset {φ : Type} (l : ColLod F φ) : Vec3 F :=
  let s := l.min.add l.max
  ⟨FArith.half s.x, FArith.half s.y, FArith.half s.z⟩

/-- `mesh_merge.py:39-49`, what follows the `raise`, up to saving.  `b` is the deep copy of `a`. -/
def joinDividers (diff : Vec3 F) (h : Heap) (a b : ColMesh F Nat) : Heap × ColMesh F Nat × Option Err :=
  match colMerge h a (colTranslate diff b) with
  | (h', c, some e) => (h', c, some e)
  | (h', c, none) =>
    match c.geoms[0]? with
    | none => (h', c, some .indexError)
    | some g =>
      match g.subgeoms[0]? with
      | none => (h', c, some .indexError)
      | some s =>
        match s.lods[0]? with
        | none => (h', c, some .indexError)
        | some l => (h', colTranslate (centerOffset l).neg c, none)

variable [FCodec F]

/-- `mesh_merge.py:39-67` without the `raise`: the file system after `colmesh.save(path_save)`. -/
def meshMergeMeant (pl : Plat) (fs : FS) (root : Str) (diff : Vec3 F) (h : Heap) (a b : ColMesh F Nat) :
    FS × Option Err :=
  match joinDividers diff h a b with
  | (_, _, some e) => (fs, some e)
  | (h', c, none) => saveCol pl fs (c.map id h') (mergedDividerPath root)

end

end Bf2
