import Verif.OldMesh
import Verif.ColMesh
import Verif.OldEditSpec
import Verif.Float64

/-!
# `/repo/deprecated/mock_mesh.py`

The objects `Box()` and `ColBox()` make: a mesh and a collision mesh that do not come from a file.
Each float literal there is a multiple of one half; `-0.0` occurs.

`Box` is none of the three kinds: `VisMesh.__init__` has all flags false by default
(`modmesh.py:560-569`).  `lod.version` (line 452) is an attribute nothing reads.
-/

namespace Bf2

/-- The float literal `n / 2`. -/
def hf (n : Int) : F64 := F64.ofRat false (n / 2 : ℚ)

/-- The float literal `-0.0`. -/
def m0 : F64 := F64.ofRat true 0

/-- `mock_mesh.py:221-253` -/
def boxPositions : List (Vec3 F64) := [
  ⟨hf 1, hf 2, hf (-1)⟩, ⟨hf 1, hf 0, hf (-1)⟩, ⟨hf (-1), hf 0, hf (-1)⟩,
  ⟨hf (-1), hf 2, hf (-1)⟩, ⟨hf 1, hf 2, hf 1⟩, ⟨hf (-1), hf 2, hf 1⟩, ⟨hf (-1), m0, hf 1⟩,
  ⟨hf 1, m0, hf 1⟩, ⟨hf 1, hf 2, hf (-1)⟩, ⟨hf 1, hf 2, hf 1⟩, ⟨hf 1, m0, hf 1⟩,
  ⟨hf 1, m0, hf (-1)⟩, ⟨hf 1, m0, hf (-1)⟩, ⟨hf 1, m0, hf 1⟩, ⟨hf (-1), m0, hf 1⟩,
  ⟨hf (-1), m0, hf (-1)⟩, ⟨hf (-1), m0, hf (-1)⟩, ⟨hf (-1), m0, hf 1⟩, ⟨hf (-1), hf 2, hf 1⟩,
  ⟨hf (-1), hf 2, hf (-1)⟩, ⟨hf 1, hf 2, hf 1⟩, ⟨hf 1, hf 2, hf (-1)⟩, ⟨hf (-1), hf 2, hf (-1)⟩,
  ⟨hf (-1), hf 2, hf 1⟩]

/-- `mock_mesh.py:254-286` -/
def boxNormals : List (Vec3 F64) := [
  ⟨hf 0, hf 0, hf (-2)⟩, ⟨hf 0, hf 0, hf (-2)⟩, ⟨hf 0, hf 0, hf (-2)⟩, ⟨hf 0, hf 0, hf (-2)⟩,
  ⟨hf 0, m0, hf 2⟩, ⟨hf 0, m0, hf 2⟩, ⟨hf 0, m0, hf 2⟩, ⟨hf 0, m0, hf 2⟩, ⟨hf 2, m0, hf 0⟩,
  ⟨hf 2, m0, hf 0⟩, ⟨hf 2, m0, hf 0⟩, ⟨hf 2, m0, hf 0⟩, ⟨m0, hf (-2), m0⟩, ⟨m0, hf (-2), m0⟩,
  ⟨m0, hf (-2), m0⟩, ⟨m0, hf (-2), m0⟩, ⟨hf (-2), hf 0, m0⟩, ⟨hf (-2), hf 0, m0⟩,
  ⟨hf (-2), hf 0, m0⟩, ⟨hf (-2), hf 0, m0⟩, ⟨hf 0, hf 2, hf 0⟩, ⟨hf 0, hf 2, hf 0⟩,
  ⟨hf 0, hf 2, hf 0⟩, ⟨hf 0, hf 2, hf 0⟩]

/-- `mock_mesh.py:287-323`: more entries than vertices; the surplus is not used. -/
def boxBlendIndices : List F64 := List.replicate 27 (hf 0)

/-- `mock_mesh.py:324-356` -/
def boxUv1 : List (F64 × F64) := [
  (hf 0, hf 2), (hf 2, hf 2), (hf 2, hf 0), (hf 0, hf 0), (hf 0, hf 1), (hf 2, hf 1),
  (hf 2, hf 3), (hf 0, hf 3), (hf 1, hf 1), (hf 1, hf 2), (hf 0, hf 2), (hf 0, hf 1),
  (hf 1, hf 0), (hf 1, hf 1), (hf 0, hf 1), (hf 0, hf 0), (hf 2, hf 1), (hf 2, hf 0),
  (hf 1, hf 0), (hf 1, hf 1), (hf 1, hf 2), (hf 1, hf 1), (hf 2, hf 1), (hf 2, hf 2)]

/-- `mock_mesh.py:357-389` -/
def boxTangents : List (Vec3 F64) := [
  ⟨hf 2, hf 0, hf 0⟩, ⟨hf 2, hf 0, hf 0⟩, ⟨hf 0, hf 0, hf 0⟩, ⟨hf 0, hf 0, hf 0⟩,
  ⟨hf 1, hf 0, hf 0⟩, ⟨hf 1, hf 0, hf 0⟩, ⟨hf 3, hf 0, hf 0⟩, ⟨hf 3, hf 0, hf 0⟩,
  ⟨hf 1, hf 0, hf 0⟩, ⟨hf 2, hf 0, hf 0⟩, ⟨hf 2, hf 0, hf 0⟩, ⟨hf 1, hf 0, hf 0⟩,
  ⟨hf 0, hf 0, hf 0⟩, ⟨hf 1, hf 0, hf 0⟩, ⟨hf 1, hf 0, hf 0⟩, ⟨hf 0, hf 0, hf 0⟩,
  ⟨hf 1, hf 0, hf 0⟩, ⟨hf 0, hf 0, hf 0⟩, ⟨hf 0, hf 0, hf 0⟩, ⟨hf 1, hf 0, hf 0⟩,
  ⟨hf 2, hf 0, hf 0⟩, ⟨hf 1, hf 0, hf 0⟩, ⟨hf 1, hf 0, hf 0⟩, ⟨hf 2, hf 0, hf 0⟩]

/-- `mock_mesh.py:401-444` -/
def boxIndex : List Int := [
  22, 23, 20, 20, 21, 22, 18, 19, 16, 16, 17, 18, 14, 15, 12, 12, 13, 14,
  10, 11, 8, 8, 9, 10, 6, 7, 4, 4, 5, 6, 2, 3, 0, 0, 1, 2]

/-- `mock_mesh.py:49-81` -/
def colBoxFaces : List ColFace := [
  ⟨0, 1, 2, 0, none⟩, ⟨2, 3, 0, 0, none⟩, ⟨1, 4, 5, 0, none⟩, ⟨5, 2, 1, 0, none⟩,
  ⟨4, 6, 7, 0, none⟩, ⟨7, 5, 4, 0, none⟩, ⟨6, 0, 3, 0, none⟩, ⟨3, 7, 6, 0, none⟩,
  ⟨4, 1, 0, 0, none⟩, ⟨0, 6, 4, 0, none⟩, ⟨5, 7, 3, 0, none⟩, ⟨3, 2, 5, 0, none⟩,
  ⟨8, 9, 10, 0, none⟩, ⟨10, 11, 8, 0, none⟩, ⟨9, 12, 13, 0, none⟩, ⟨13, 10, 9, 0, none⟩,
  ⟨12, 14, 15, 0, none⟩, ⟨15, 13, 12, 0, none⟩, ⟨14, 8, 11, 0, none⟩, ⟨11, 15, 14, 0, none⟩,
  ⟨12, 9, 8, 0, none⟩, ⟨8, 14, 12, 0, none⟩, ⟨13, 15, 11, 0, none⟩, ⟨11, 10, 13, 0, none⟩]

/-- `mock_mesh.py:103-125` -/
def colBoxVertices : List (Vec3 F64) := [
  ⟨hf (-1), hf 2, hf (-1)⟩, ⟨hf (-1), hf 2, hf 1⟩, ⟨hf (-1), hf 0, hf 1⟩,
  ⟨hf (-1), hf 0, hf (-1)⟩, ⟨hf 1, hf 2, hf 1⟩, ⟨hf 1, hf 0, hf 1⟩, ⟨hf 1, hf 2, hf (-1)⟩,
  ⟨hf 1, hf 0, hf (-1)⟩, ⟨hf (-5), hf 2, hf (-1)⟩, ⟨hf (-5), hf 2, hf 1⟩, ⟨hf (-5), hf 0, hf 1⟩,
  ⟨hf (-5), hf 0, hf (-1)⟩, ⟨hf (-3), hf 2, hf 1⟩, ⟨hf (-3), hf 0, hf 1⟩,
  ⟨hf (-3), hf 2, hf (-1)⟩, ⟨hf (-3), hf 0, hf (-1)⟩]

/-- `mock_mesh.py:197-213`: each attribute starts where the one before ends. -/
def boxAttrTable (vertformat : Int) : Int → List (Int × Int × Int) → List VAttr
  | _, [] => []
  | start, (flag, vartype, usage) :: rest =>
    ⟨flag, start, vartype, usage⟩ ::
      boxAttrTable vertformat (start + (oldFloats vartype).getD 0 * vertformat) rest

/-- `mock_mesh.py:197-204` -/
def boxAttrs : List VAttr :=
  boxAttrTable 4 0 [(0, 2, 0), (0, 2, 3), (0, 4, 2), (0, 1, 5), (0, 2, 6)]

/-- `mock_mesh.py:390-397`: the vertices, attribute by attribute; the lists are indexed by the
numbers of the positions. -/
def boxVertices : List F64 :=
  (boxPositions.zip (boxNormals.zip (boxBlendIndices.zip (boxUv1.zip boxTangents)))).flatMap
    fun (p, n, b, (u, v), t) => p.toList ++ n.toList ++ [b] ++ [u, v] ++ t.toList

/-- `mock_mesh.py:464-484`, the strings are `StaticMesh.fx`, `Base` and `default.dds`. -/
def boxMat : Mat F64 where
  alphamode := some 0
  fxfile := [83, 116, 97, 116, 105, 99, 77, 101, 115, 104, 46, 102, 120]
  technique := [66, 97, 115, 101]
  mapnum := 1
  maps := [[100, 101, 102, 97, 117, 108, 116, 46, 100, 100, 115]]
  vstart := 0
  istart := 0
  inum := 36
  vnum := 24
  u4 := 0
  u5 := 0
  mmin := some ⟨hf (-2), hf (-2), hf (-2)⟩
  mmax := some ⟨hf 2, hf 2, hf 2⟩

/-- `mock_mesh.py:449-484` on the lod `bf2lod()` makes. -/
def boxLod : OldLod F64 where
  min := ⟨hf (-2), hf (-2), hf (-2)⟩
  max := ⟨hf 2, hf 2, hf 2⟩
  pivot := none
  rignum := none
  rigs := []
  nodenum := some 1
  nodes := some ⟨⟨hf 2, hf 0, hf 0, hf 0⟩, ⟨hf 0, hf 2, hf 0, hf 0⟩, ⟨hf 0, hf 0, hf 2, hf 0⟩,
    ⟨hf 0, hf 0, hf 0, hf 2⟩⟩
  matnum := 1
  materials := [boxMat]
  polyInum := 36

/-- `mock_mesh.py:151-484`: `Box()`. -/
def mockBox : OldMesh F64 where
  kind := ⟨false, false, false, false⟩
  head := ⟨0, 11, 0, 0, 0⟩
  u1 := 0
  geomnum := 1
  geoms := [⟨1, [boxLod]⟩]
  vertattribnum := boxAttrs.length
  vattrs := boxAttrs
  vertformat := 4
  vertstride := (boxAttrs.map fun a => ((oldFloats a.vartype).getD 0 : Int) * 4).sum
  vertnum := boxPositions.length
  vertices := boxVertices
  vertsList := false
  indexnum := boxIndex.length
  index := boxIndex
  indexList := true
  u2 := 8

/-- `mock_mesh.py:36-146`: a lod of collision type `t`. -/
def colBoxLod (t : Int) : ColLod F64 ColFace where
  coltype := t
  facenum := colBoxFaces.length
  faces := colBoxFaces
  vertnum := colBoxVertices.length
  vertices := colBoxVertices
  vertids := colBoxVertices.map fun _ => 0
  min := ⟨hf (-1), hf 0, hf (-1)⟩
  max := ⟨hf 1, hf 2, hf 1⟩
  u7 := 49
  bmin := ⟨hf (-1), hf 0, hf (-1)⟩
  bmax := ⟨hf 1, hf 2, hf 1⟩
  ynum := 3
  ydata := [⟨hf (-1), 0, 0, 0, 0⟩, ⟨hf 1, 0, 0, 0, 0⟩, ⟨hf 0, 0, 0, 0, 0⟩]
  znum := 0
  zdata := []
  anum := 0
  adata := []

/-- `mock_mesh.py:8-146`: `ColBox()`; a lod for each member of `coltype`. -/
def mockColBox : ColMesh F64 ColFace where
  u1 := 0
  version := 10
  geomnum := 1
  geoms := [⟨1, [⟨5, [colBoxLod 0, colBoxLod 1, colBoxLod 2, colBoxLod 3, colBoxLod 4]⟩]⟩]

end Bf2
