import Verif.EqualSpec
import Verif.EditSpec

/-! # What two meshes have in common for which the write tests pass -/

namespace Bf2

/-- All fields of two meshes agree, floats as numbers, but, possibly, the upper bounds of materials. -/
structure MeshAgrees (s m : Mesh F64) : Prop where
  head : s.head = m.head
  u1 : s.u1 = m.u1
  geomnum : s.geomnum = m.geomnum
  geoms : List.Forall₂ (fun g h : Geom F64 => g.lodnum = h.lodnum ∧
    List.Forall₂ LodEqual g.lods h.lods) s.geoms m.geoms
  vertattribnum : s.vertattribnum = m.vertattribnum
  vattrs : s.vattrs = m.vattrs
  vertformat : s.vertformat = m.vertformat
  vertstride : s.vertstride = m.vertstride
  vertnum : s.vertnum = m.vertnum
  vertices : NumsEq s.vertices m.vertices
  indexnum : s.indexnum = m.indexnum
  index : s.index = m.index
  u2 : s.u2 = m.u2

/-- Not the double `-0.0`. -/
def NotMinusZero (x : F64) : Prop := x.value = 0 → x.neg = false

/-- Other upper bounds in the materials. -/
def Lod.withMmax (f : Mat F64 → Option (Vec3 F64)) (l : Lod F64) : Lod F64 :=
  { l with materials := l.materials.map fun a => { a with mmax := f a } }

def Geom.withMmax (f : Mat F64 → Option (Vec3 F64)) (g : Geom F64) : Geom F64 :=
  { g with lods := g.lods.map (Lod.withMmax f) }

def Mesh.withMmax (f : Mat F64 → Option (Vec3 F64)) (m : Mesh F64) : Mesh F64 :=
  { m with geoms := m.geoms.map (Geom.withMmax f) }

end Bf2
