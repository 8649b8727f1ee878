import Verif.SizeSpec

/-!
# Which bytes of a file may differ (C158)

A mask has one entry for each byte of the file of a mesh: `true` where the byte may change.
-/

namespace Bf2

variable {F : Type}

/-- Where the vertex block starts: behind one byte, ten longs, one for each geom, and the attributes. -/
def Mesh.vertexStart (pl : Plat) (m : Mesh F) : Nat :=
  1 + pl.cLong * (10 + m.geoms.length) + 8 * m.vattrs.length

/-- A material: longs and names, then its box if there is one. -/
def Mat.mask (pl : Plat) (k : Kind) (version : Int) (box : Bool) (a : Mat F) : List Bool :=
  List.replicate (a.info.size pl.cLong 0) false ++ List.replicate (boxSize k version) box

/-- A lod in the first pass: its box, then the rest. -/
def Lod.nodeMask (pl : Plat) (k : Kind) (box : Bool) (l : Lod F) : List Bool :=
  List.replicate 24 box ++ List.replicate (12 * l.pivot.toList.length + pl.cLong +
    if k.isSkinned then (l.rigs.map fun r => pl.cLong + (pl.cLong + 64) * r.bones.length).sum
    else 64 * l.nodes.length) false

/-- A lod in the second pass: the number of materials, the materials. -/
def Lod.matMask (pl : Plat) (k : Kind) (version : Int) (box : Bool) (l : Lod F) : List Bool :=
  List.replicate pl.cLong false ++ l.materials.flatMap (Mat.mask pl k version box)

/-- The bytes of float number `i` of the vertex block if `slot i`, those of the boxes if `box`, no
others. -/
def Mesh.mask (pl : Plat) (slot : Nat → Bool) (box : Bool) (m : Mesh F) : List Bool :=
  List.replicate (m.vertexStart pl) false ++
    (List.range m.vertices.length).flatMap (fun i => List.replicate 4 (slot i)) ++
    List.replicate (pl.cLong * (1 + if m.kind.isSkinned then 0 else 1) + 2 * m.index.elems.length) false ++
    m.geoms.flatMap (fun g => g.lods.flatMap (Lod.nodeMask pl m.kind box)) ++
    m.geoms.flatMap (fun g => g.lods.flatMap (Lod.matMask pl m.kind m.head.version box))

/-- The files have an entry of the mask for each byte, and are the same outside of it. -/
structure SameOutside (mask : List Bool) (a b : Bytes) : Prop where
  left : a.length = mask.length
  right : b.length = mask.length
  same : ∀ p : Nat, mask[p]? ≠ some true → a[p]? = b[p]?

end Bf2
