import Verif.ColSpec
import Verif.SizeSpec

/-! # How long the file of a collision mesh is (C167) -/

namespace Bf2

variable {F φ : Type}

/-- What all lods have: the bounds, twelve floats and a byte; the numbers of faces, vertices and two further
blocks, from version 9 on the type, from version 10 on the number of the last block. -/
def lodFrameSize (n : Nat) (version : Int) : Nat :=
  49 + n * (4 + (if 9 ≤ version then 1 else 0) + (if 10 ≤ version then 1 else 0))

/-- Four short numbers for a face, three floats for a vertex, a short number for its id; a float, two short
numbers and two longs; a short number; a long, from version 10 on. -/
def ColLod.dataSize (n : Nat) (version : Int) (l : ColLod F φ) : Nat :=
  8 * l.faces.length + 12 * l.vertices.length + 2 * l.vertids.length + (8 + 2 * n) * l.ydata.length +
    2 * l.zdata.length + if 10 ≤ version then n * l.adata.length else 0

/-- The contents of all lods, as a file of this version would store them. -/
def ColMesh.dataSize (pl : Plat) (version : Int) (m : ColMesh F φ) : Nat :=
  (m.lods.map (ColLod.dataSize pl.cLong version)).sum

/-- Everything else: three longs, one for each geom and each of its parts, and what all lods have. -/
def ColMesh.frameSize (pl : Plat) (m : ColMesh F φ) : Nat :=
  pl.cLong * (3 + m.geoms.length + (m.geoms.map fun g => g.subgeoms.length).sum) +
    lodFrameSize pl.cLong m.version * m.lods.length

end Bf2
