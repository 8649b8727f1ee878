import Verif.ColSpec
import Verif.EqualSpec

/-! # When collision meshes should be equal

Independent of the comparisons of `ColMesh.lean`. -/

namespace Bf2

/-- The same corners. -/
def SameCorners (a b : ColFace) : Prop := a.v1 = b.v1 ∧ a.v2 = b.v2 ∧ a.v3 = b.v3

/-- The same corners and the same `m`, which exists; `material` does not matter. -/
def FaceEqual (a b : ColFace) : Prop := SameCorners a b ∧ ∃ n, a.m = some n ∧ b.m = some n

structure YEqual (a b : ColY F64) : Prop where
  u1 : NumEq a.u1 b.u1
  u2 : a.u2 = b.u2
  u3 : a.u3 = b.u3
  u4 : a.u4 = b.u4
  u5 : a.u5 = b.u5

structure ColLodEqual (a b : ColLod F64 ColFace) : Prop where
  coltype : a.coltype = b.coltype
  facenum : a.facenum = b.facenum
  faces : List.Forall₂ FaceEqual a.faces b.faces
  vertnum : a.vertnum = b.vertnum
  vertices : List.Forall₂ (fun v w : Vec3 F64 => NumsEq v.floats w.floats) a.vertices b.vertices
  vertids : a.vertids = b.vertids
  min : NumsEq a.min.floats b.min.floats
  max : NumsEq a.max.floats b.max.floats
  u7 : a.u7 = b.u7
  bmin : NumsEq a.bmin.floats b.bmin.floats
  bmax : NumsEq a.bmax.floats b.bmax.floats
  ynum : a.ynum = b.ynum
  ydata : List.Forall₂ YEqual a.ydata b.ydata
  znum : a.znum = b.znum
  zdata : a.zdata = b.zdata
  anum : a.anum = b.anum
  adata : a.adata = b.adata

structure ColSubEqual (a b : ColSub F64 ColFace) : Prop where
  lodnum : a.lodnum = b.lodnum
  lods : List.Forall₂ ColLodEqual a.lods b.lods

structure ColGeomEqual (a b : ColGeom F64 ColFace) : Prop where
  subgeomnum : a.subgeomnum = b.subgeomnum
  subgeoms : List.Forall₂ ColSubEqual a.subgeoms b.subgeoms

end Bf2
