import Verif.ByteSpec
import Verif.Layout
import Verif.OldSizeSpec

/-!
# Which bytes of a file of the deprecated module may differ (C175)
-/

namespace Bf2

variable {F : Type}

/-- Where the vertex block starts: behind one byte, ten longs, one for each geom, and the attributes. -/
def OldMesh.vertexStart (pl : Plat) (o : OldMesh F) : Nat :=
  1 + pl.cLong * (10 + o.geoms.length) + 8 * o.vattrs.length

/-- A lod in the first pass: its box, then the rest. -/
def OldLod.nodeMask (pl : Plat) (k : Kind) (box : Bool) (l : OldLod F) : List Bool :=
  List.replicate 24 box ++ List.replicate (12 * l.pivot.toList.length + pl.cLong +
    if k.isSkinned then (l.rigs.map fun r => pl.cLong + (pl.cLong + 64) * r.bones.length).sum
    else 64 * (if k.isBundled then 0 else (l.nodenum.getD 0).toNat)) false

/-- A lod in the second pass: the number of materials, the materials. -/
def OldLod.matMask (pl : Plat) (k : Kind) (version : Int) (box : Bool) (l : OldLod F) : List Bool :=
  List.replicate pl.cLong false ++ l.materials.flatMap (Mat.mask pl k version box)

/-- The bytes of float number `i` of the vertex block if `slot i`, those of the boxes if `box`, no
others. -/
def OldMesh.mask (pl : Plat) (slot : Nat → Bool) (box : Bool) (o : OldMesh F) : List Bool :=
  List.replicate (o.vertexStart pl) false ++
    (List.range o.vertices.length).flatMap (fun i => List.replicate 4 (slot i)) ++
    List.replicate (pl.cLong * (1 + if o.kind.isSkinned then 0 else 1) + 2 * o.index.length) false ++
    o.geoms.flatMap (fun g => g.lods.flatMap (OldLod.nodeMask pl o.kind box)) ++
    o.geoms.flatMap (fun g => g.lods.flatMap (OldLod.matMask pl o.kind o.head.version box))

/-- How a name is written: its length, then its bytes. -/
def nameBytes (pl : Plat) (s : Bytes) : Bytes := longBytes pl s.length ++ s

end Bf2
