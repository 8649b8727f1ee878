import Verif.SizeSpec
import Verif.OldMesh
import Verif.OldEditSpec
import Verif.OldTransformSpec

/-!
# How long the files of the deprecated module are (C172)
-/

namespace Bf2

variable {F : Type}

/-- Nine longs, one more for each map and for an alpha mode, the letters of the names, and a box in version 11 unless
skinned. -/
def Mat.size (n : Nat) (k : Kind) (version : Int) (a : Mat F) : Nat := MatInfo.size n (boxSize k version) a.info

/-- A lod apart from its materials: a box, a pivot of three floats if there is one, the numbers of rigs or nodes and of
materials, then matrices of sixteen floats: for each bone with its number, or for each node. -/
def OldLod.ownSize (n : Nat) (k : Kind) (l : OldLod F) : Nat :=
  24 + 12 * l.pivot.toList.length + 2 * n +
    if k.isSkinned then (l.rigs.map fun r => n + (n + 64) * r.bones.length).sum
    else 64 * (if k.isBundled then 0 else (l.nodenum.getD 0).toNat)

/-- The number of lods, the lods and their materials. -/
def OldGeom.size (n : Nat) (k : Kind) (version : Int) (g : OldGeom F) : Nat :=
  n + (g.lods.map fun l => l.ownSize n k + (l.materials.map (Mat.size n k version)).sum).sum

/-- One byte and eleven longs, one more unless skinned; eight bytes for each attribute, four for each float, two for
each index; the geoms. -/
def OldMesh.size (pl : Plat) (o : OldMesh F) : Nat :=
  1 + pl.cLong * (11 + if o.kind.isSkinned then 0 else 1) + 8 * o.vattrs.length + 4 * o.vertices.length +
    2 * o.index.length + (o.geoms.map (OldGeom.size pl.cLong o.kind o.head.version)).sum

end Bf2
