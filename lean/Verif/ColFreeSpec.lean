import Verif.ColSpec
import Verif.FreeSpec

/-!
# Which bytes of a collision mesh file the layout does not depend on (C177)
-/

namespace Bf2

local notation "W" => BitVec 32

variable {F φ : Type}

/-- The collision type is not free: it must be one of five. -/
def ColLod.marked (version : Int) (l : ColLod W FileFace) : List Marked :=
  (if 9 ≤ version then [fixed (.long l.coltype)] else []) ++
    (fixed (.long l.facenum) :: (l.faces.flatMap FileFace.items).map free) ++
    (fixed (.long l.vertnum) :: (l.vertices.flatMap Vec3.items ++ l.vertids.map Item.sshort).map free) ++
    (l.min.items ++ l.max.items ++ [Item.byte l.u7] ++ l.bmin.items ++ l.bmax.items).map free ++
    (fixed (.long l.ynum) :: (l.ydata.flatMap ColY.items).map free) ++
    (fixed (.long l.znum) :: (l.zdata.map Item.sshort).map free) ++
    (if 10 ≤ version then fixed (.long l.anum) :: (l.adata.map Item.long).map free else [])

def ColSub.marked (version : Int) (s : ColSub W FileFace) : List Marked :=
  fixed (.long s.lodnum) :: s.lods.flatMap (ColLod.marked version)

def ColGeom.marked (version : Int) (g : ColGeom W FileFace) : List Marked :=
  fixed (.long g.subgeomnum) :: g.subgeoms.flatMap (ColSub.marked version)

def ColMesh.marked (m : ColFile) : List Marked :=
  [free (.long m.u1), fixed (.long m.version), fixed (.long m.geomnum)] ++
    m.geoms.flatMap (ColGeom.marked m.version)

/-- `true` for each byte of the file of the mesh that is free. -/
def ColMesh.freeMask (pl : Plat) (m : ColMesh F φ) : List Bool :=
  (m.map (fun _ => (0 : W)) (fun _ => (⟨0, 0, 0, 0⟩ : FileFace))).marked.flatMap (Marked.mask pl)

/-! ## The mesh without the values of free items -/

def ColY.blank (_ : ColY F) : ColY Unit := ⟨(), 0, 0, 0, 0⟩

def ColLod.blank (l : ColLod F φ) : ColLod Unit Unit :=
  ⟨l.coltype, l.facenum, l.faces.map fun _ => (), l.vertnum, l.vertices.map (Vec3.map fun _ => ()),
    l.vertids.map fun _ => 0, l.min.map fun _ => (), l.max.map fun _ => (), 0, l.bmin.map fun _ => (),
    l.bmax.map fun _ => (), l.ynum, l.ydata.map ColY.blank, l.znum, l.zdata.map fun _ => 0, l.anum,
    l.adata.map fun _ => 0⟩

def ColSub.blank (s : ColSub F φ) : ColSub Unit Unit := ⟨s.lodnum, s.lods.map ColLod.blank⟩

def ColGeom.blank (g : ColGeom F φ) : ColGeom Unit Unit := ⟨g.subgeomnum, g.subgeoms.map ColSub.blank⟩

/-- Counts, lengths, the version and the collision types stay. -/
def ColMesh.blank (m : ColMesh F φ) : ColMesh Unit Unit :=
  ⟨0, m.version, m.geomnum, m.geoms.map ColGeom.blank⟩

end Bf2
