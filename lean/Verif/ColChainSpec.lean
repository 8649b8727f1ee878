import Verif.ColEditSpec

/-! # What merging several collision meshes makes of a lod (C170) -/

namespace Bf2

/-- `z`, with the faces as they are afterwards, is `x` followed by the lods `ys`; the corners of every face of `ys` are
moved by the number of vertices of the face's own lod. -/
structure StackedLod {F : Type} (h h' : Heap) (x : ColLod F Nat) (ys : List (ColLod F Nat)) (z : ColLod F Nat) :
    Prop where
  vertices : z.vertices = x.vertices ++ ys.flatMap (·.vertices)
  vertids : z.vertids = x.vertids ++ ys.flatMap (·.vertids)
  vertnum : z.vertnum = x.vertnum + (ys.map (·.vertnum)).sum
  facenum : z.facenum = x.facenum + (ys.map (·.facenum)).sum
  faces : z.faces = x.faces ++ ys.flatMap (·.faces)
  seen : z.faces.map h' = x.faces.map h ++ ys.flatMap fun y => y.faces.map fun f =>
    { h f with v1 := (h f).v1 + y.vertnum, v2 := (h f).v2 + y.vertnum, v3 := (h f).v3 + y.vertnum }

end Bf2
