import Verif.OldStages

/-!
# What is known of a mesh after its first parts
-/

namespace Bf2

variable {F : Type}

/-- A lod before its materials are read. -/
def OldLod.bare (l : OldLod F) : OldLod F := { l with matnum := 0, materials := [], polyInum := 0 }

def OldGeom.bare (g : OldGeom F) : OldGeom F := { g with lods := g.lods.map OldLod.bare }

/-- The first `n` parts of `o`, and otherwise what a new object holds. -/
def OldMesh.upTo (o : OldMesh F) (n : Nat) : OldPart F where
  head := if 1 ≤ n then some o.head else none
  u1 := if 2 ≤ n then o.u1 else 0
  geomnum := if 3 ≤ n then o.geomnum else 0
  lodnums := if 4 ≤ n then o.geoms.map (·.lodnum) else []
  vertattribnum := if 5 ≤ n then o.vertattribnum else 0
  vattrs := if 6 ≤ n then o.vattrs else []
  vertformat := if 7 ≤ n then o.vertformat else 4
  vertstride := if 8 ≤ n then o.vertstride else 0
  vertnum := if 9 ≤ n then o.vertnum else 0
  vertices := if 10 ≤ n then o.vertices else []
  indexnum := if 11 ≤ n then o.indexnum else 0
  index := if 12 ≤ n then o.index else []
  u2 := if 13 ≤ n then o.u2 else 0
  geoms := if 15 ≤ n then o.geoms else if 14 ≤ n then o.geoms.map OldGeom.bare else []

end Bf2
