import Verif.Mesh

/-! # The objects a mesh consists of -/

namespace Bf2
variable {F : Type}

/-- Rigs, bones and materials of a lod. -/
def Lod.objects (l : Lod F) : Nat :=
  l.rigs.length + (l.rigs.map fun r => r.bones.length).sum + l.materials.length

/-- Lods of a geom and what is in them. -/
def Geom.objects (g : Geom F) : Nat := g.lods.length + (g.lods.map Lod.objects).sum

/-- Geoms, lods, rigs, bones, materials and vertex attributes of a mesh. -/
def Mesh.objects (m : Mesh F) : Nat := m.geoms.length + (m.geoms.map Geom.objects).sum + m.vattrs.length

end Bf2
