import Verif.SharedSpec
import Verif.HistorySpec

/-! # What belongs to a mesh besides arrays, ranges and boxes (C145) -/

namespace Bf2

variable {F : Type}

/-- What a material is, apart from where its data lies and how much it has. -/
structure MatInfo where
  alphamode : Option Int
  fxfile : Bytes
  technique : Bytes
  mapnum : Int
  maps : List Bytes
  u4 : Int
  u5 : Int
  deriving DecidableEq

/-- What a lod is, apart from its box. -/
structure LodInfo (F : Type) where
  pivot : Option (Vec3 F)
  rignum : Int
  rigs : List (Rig F)
  nodenum : Int
  nodes : List (Mat4 F)
  matnum : Int
  materials : List MatInfo
  deriving DecidableEq

def Mat.info (a : Mat F) : MatInfo := ⟨a.alphamode, a.fxfile, a.technique, a.mapnum, a.maps, a.u4, a.u5⟩

def Lod.info (l : Lod F) : LodInfo F :=
  ⟨l.pivot, l.rignum, l.rigs, l.nodenum, l.nodes, l.matnum, l.materials.map Mat.info⟩

def Geom.info (g : Geom F) : Int × List (LodInfo F) := (g.lodnum, g.lods.map Lod.info)

/-- How many vertices and indices each material of a geom has. -/
def Geom.amounts (g : Geom F) : List (List (Int × Int)) :=
  g.lods.map fun l => l.materials.map fun a => (a.vnum, a.inum)

/-- Where the data of each material of a geom starts. -/
def Geom.places (g : Geom F) : List (List (Int × Int)) :=
  g.lods.map fun l => l.materials.map fun a => (a.vstart, a.istart)

/-- The boxes of the lods of a geom and of their materials. -/
def Geom.boxes (g : Geom F) : List (Vec3 F × Vec3 F × List (Option (Vec3 F) × Option (Vec3 F))) :=
  g.lods.map fun l => (l.min, l.max, l.materials.map fun a => (a.mmin, a.mmax))

/-- Calls of `change_geoms_order`. -/
def EditCall.reorders : EditCall F → Prop
  | .reorder _ => True
  | _ => False

/-- Calls of `merge`. -/
def EditCall.merges : EditCall F → Prop
  | .merge _ | .mergeSelf => True
  | _ => False

/-- Calls of `update_boundaries`, and of `get_lod_center_offset` that make it do so. -/
def EditCall.bounds : EditCall F → Prop
  | .update | .center _ _ true => True
  | _ => False

/-- Calls of `translate` and `rotate`. -/
def EditCall.moves : EditCall F → Prop
  | .translate _ | .rotate _ => True
  | _ => False

end Bf2
