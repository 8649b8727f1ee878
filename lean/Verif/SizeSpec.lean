import Verif.FrameSpec

/-! # How long the file of a mesh is (C151) -/

namespace Bf2

variable {F : Type}

/-- Bytes of a C `long`. -/
def Plat.cLong (pl : Plat) : Nat := if pl.long8 then 8 else 4

/-- Two corners of three floats, where materials have boxes. -/
def boxSize (k : Kind) (version : Int) : Nat := if k.isSkinned = false ∧ version = 11 then 24 else 0

/-- Nine longs, one more for each map and for an alpha mode, the letters of the names, the box. -/
def MatInfo.size (n box : Nat) (a : MatInfo) : Nat :=
  n * (9 + a.maps.length + a.alphamode.toList.length) + a.fxfile.length + a.technique.length +
    (a.maps.map List.length).sum + box

/-- A box, a pivot of three floats if there is one, then matrices of sixteen floats: for each bone with its
number, or for each node.  The numbers of rigs or nodes and of materials, the materials. -/
def LodInfo.size (n : Nat) (k : Kind) (version : Int) (l : LodInfo F) : Nat :=
  24 + 12 * l.pivot.toList.length + 2 * n +
    (if k.isSkinned then (l.rigs.map fun r => n + (n + 64) * r.bones.length).sum else 64 * l.nodes.length) +
    (l.materials.map (MatInfo.size n (boxSize k version))).sum

/-- The length of the file apart from vertices and indices: one byte and eleven longs, one more unless skinned,
one for each geom, eight bytes for each attribute, the lods. -/
def Mesh.restSize (pl : Plat) (m : Mesh F) : Nat :=
  1 + pl.cLong * (11 + (if m.kind.isSkinned then 0 else 1) + m.geoms.length) + 8 * m.vattrs.length +
    (m.geoms.map fun g => (g.info.2.map (LodInfo.size pl.cLong m.kind m.head.version)).sum).sum

/-- Four bytes for each float, two for each index. -/
def Mesh.dataSize (m : Mesh F) : Nat := 4 * m.vertices.length + 2 * m.index.elems.length

end Bf2
