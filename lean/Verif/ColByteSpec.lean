import Verif.ColSpec
import Verif.FreeSpec

/-! # Which bytes of a collision mesh file hold vertices, materials of faces and signalling NaNs (C179) -/

namespace Bf2

local notation "W" => BitVec 32

/-- What is marked in a file. -/
structure Touch where
  vertices : Bool
  materials : Bool
  nans : Bool

namespace Touch

def word (t : Touch) (w : W) : Marked := (t.nans && decide (SNaN w), .word w)

def vec (t : Touch) (v : Vec3 W) : List Marked := v.floats.map t.word

def vertex (t : Touch) (v : Vec3 W) : List Marked := v.floats.map fun w => (t.vertices || (t.word w).1, .word w)

def face (t : Touch) (f : FileFace) : List Marked :=
  [fixed (.sshort f.v1), fixed (.sshort f.v2), fixed (.sshort f.v3), (t.materials, .sshort f.material)]

def ydata (t : Touch) (y : ColY W) : List Marked :=
  [t.word y.u1, fixed (.sshort y.u2), fixed (.sshort y.u3), fixed (.long y.u4), fixed (.long y.u5)]

def lod (t : Touch) (version : Int) (l : ColLod W FileFace) : List Marked :=
  (if 9 ≤ version then [fixed (.long l.coltype)] else []) ++
    (fixed (.long l.facenum) :: l.faces.flatMap t.face) ++
    (fixed (.long l.vertnum) :: (l.vertices.flatMap t.vertex ++ (l.vertids.map Item.sshort).map fixed)) ++
    (t.vec l.min ++ t.vec l.max ++ [fixed (.byte l.u7)] ++ t.vec l.bmin ++ t.vec l.bmax) ++
    (fixed (.long l.ynum) :: l.ydata.flatMap t.ydata) ++
    (fixed (.long l.znum) :: (l.zdata.map Item.sshort).map fixed) ++
    (if 10 ≤ version then fixed (.long l.anum) :: (l.adata.map Item.long).map fixed else [])

def sub (t : Touch) (version : Int) (s : ColSub W FileFace) : List Marked :=
  fixed (.long s.lodnum) :: s.lods.flatMap (t.lod version)

def geom (t : Touch) (version : Int) (g : ColGeom W FileFace) : List Marked :=
  fixed (.long g.subgeomnum) :: g.subgeoms.flatMap (t.sub version)

def mesh (t : Touch) (m : ColFile) : List Marked :=
  [fixed (.long m.u1), fixed (.long m.version), fixed (.long m.geomnum)] ++ m.geoms.flatMap (t.geom m.version)

/-- `true` for each byte of the file that is marked. -/
def mask (t : Touch) (pl : Plat) (m : ColFile) : List Bool := (t.mesh m).flatMap (Marked.mask pl)

end Touch

end Bf2
