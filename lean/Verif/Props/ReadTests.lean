import Verif.Props.Format
import Verif.Equal
import Verif.Edit
import Verif.ColSample
import Verif.ColMesh
import Verif.OldMesh

/-!
# The assertions of `/repo/tests/test_visiblemesh_read.py` on the sample file

A check of the model, not a property: loading the file `evil_box.staticmesh` of the repository in the
model gives what the read tests of the repository assert of it (lines 14-157).  The same for the
deprecated modules: `/repo/deprecated/tests_colmesh_read.py:16-44` on `evil_box.collisionmesh` and, where
they are about this sample, `/repo/deprecated/tests_vismesh_read.py:213-266`.
-/

namespace Bf2

/-- The double for a number. -/
def dbl (q : Rat) : F64 := F64.ofRat false q

/-- The vertex attributes the test builds (lines 42-69): flag, offset, type, usage. -/
def testAttrs : List VAttr :=
  [⟨0, 0, 2, 0⟩, ⟨0, 12, 2, 3⟩, ⟨0, 24, 4, 2⟩, ⟨0, 28, 1, 5⟩, ⟨0, 36, 1, 261⟩, ⟨0, 44, 1, 517⟩,
    ⟨0, 52, 1, 773⟩, ⟨0, 60, 1, 1029⟩, ⟨0, 68, 2, 6⟩, ⟨255, 0, 17, 0⟩]

/-- Lines 14-38: header and geoms. -/
example : (load (F := F64) win staticKind evilBox).toOption.map (fun m =>
      (m.head, m.u1, m.geomnum, m.geoms.map Geom.lodnum, m.kind.isStatic)) =
    some (⟨0, 11, 0, 0, 0⟩, 0, 1, [1], true) := by
  decide +kernel

/-- Lines 36-83: the attributes; the stride is the sum of the sizes. -/
example : (load (F := F64) win staticKind evilBox).toOption.map (fun m =>
      (m.vertattribnum, m.vattrs, m.vertformat, m.vertstride)) = some (10, testAttrs, 4, 80) ∧
    ((testAttrs.map fun a => (declLen a.vartype).toOption.getD 100 * 4).sum = 80) := by
  decide +kernel

/-- Lines 85-125: vertices and indices. -/
example : (load (F := F64) win staticKind evilBox).toOption.map (fun m =>
      (m.vertnum, m.indexnum, m.index.elems.take 6, m.u2,
        ((m.vertices.take 6).zip [dbl (1 / 2), dbl 0, dbl (1 / 2), dbl 0, dbl (-1), dbl 0]).map
          fun p => p.1.feq p.2)) =
    some (25, 36, [22, 23, 20, 20, 21, 22], 8, [true, true, true, true, true, true]) := by
  decide +kernel

/-- Lines 119-133: the lod. -/
def lodAsserts (l : Lod F64) : Bool :=
  vec3Eq l.min ⟨dbl (-1 / 2), dbl 0, dbl (-1 / 2)⟩ && vec3Eq l.max ⟨dbl (1 / 2), dbl 1, dbl (1 / 2)⟩ &&
  l.nodenum == 1 &&
  match l.nodes with
  | n :: _ => mat4Eq n ⟨⟨dbl 1, dbl 0, dbl 0, dbl 0⟩, ⟨dbl 0, dbl 1, dbl 0, dbl 0⟩,
      ⟨dbl 0, dbl 0, dbl 1, dbl 0⟩, ⟨dbl 0, dbl 0, dbl 0, dbl 1⟩⟩
  | [] => false

/-- The bytes of an ASCII string. -/
def asciiBytes (s : String) : Bytes := s.toList.map fun c => UInt8.ofNat c.toNat

/-- Lines 138-152: the material. -/
def matAsserts (a : Mat F64) : Bool :=
  a.alphamode == some 0 && a.fxfile == asciiBytes "StaticMesh.fx" && a.technique == asciiBytes "Base" &&
  a.mapnum == 2 &&
  a.maps[0]? == some (asciiBytes "objects/staticobjects/test/evil_box/textures/evil_box_c.dds") &&
  a.maps[1]? == some (asciiBytes "Common\\Textures\\SpecularLUT_pow36.dds") &&
  a.vstart == 0 && a.istart == 0 && a.inum == 36 && a.vnum == 25 && a.u4 == 8064 && a.u5 == 65535 &&
  optVecEq a.mmin (some ⟨dbl (-1 / 2), dbl 0, dbl (-1 / 2)⟩) &&
  optVecEq a.mmax (some ⟨dbl (1 / 2), dbl 1, dbl (1 / 2)⟩)

example : (load (F := F64) win staticKind evilBox).toOption.map (fun m => m.geoms.map fun g => g.lods.map
      fun l => (lodAsserts l, l.matnum, l.materials.map matAsserts)) =
    some [[(true, 1, [true])]] := by
  decide +kernel

/-- `tests_colmesh_read.py:16-44`. -/
example : (loadCol (F := F64) win evilBoxCol).toOption.map (fun m =>
      (m.u1, m.version, m.geomnum, m.geoms.map fun g => (g.subgeomnum, g.subgeoms.map ColSub.lodnum))) ==
      some (0, 10, 1, [(1, [3])]) ∧
    evilBoxCol.length = 1511 ∧
    (loadCol (F := F64) win evilBoxCol).toOption.map (fun m =>
      m.geoms.map fun g => g.subgeoms.map fun s => (s.lods.take 1).map fun l =>
        [l.coltype, l.facenum, l.u7, l.ynum, l.znum, l.anum]) =
      some [[[[0, 12, 49, 3, 12, 36]]]] := by
  decide +kernel

/-- `tests_vismesh_read.py:213-215, 248-266`; `polycount` is a third of `polyInum`. -/
example : (oldLoad (F := F64) win staticKind evilBox).toOption.map (fun m => m.geoms.map fun g => g.lods.map
      fun l => vec3Eq l.min ⟨dbl (-1 / 2), dbl 0, dbl (-1 / 2)⟩ &&
        vec3Eq l.max ⟨dbl (1 / 2), dbl 1, dbl (1 / 2)⟩ && l.nodenum == some 1 && l.matnum == 1 &&
        (l.materials.map matAsserts == [true]) && l.polyInum == 36) =
    some [[true]] := by
  decide +kernel

end Bf2
