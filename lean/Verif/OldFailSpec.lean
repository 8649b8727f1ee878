import Verif.Layout
import Verif.OldStages

/-! # Files whose first lod has no material -/

namespace Bf2

/-- `_read_nodes` reads the file, there is a lod, and the number of its materials, which comes next, is not
above 0. -/
def NoFirstMaterial (F : Type) [FCodec F] (pl : Plat) (k : Kind) (file : Bytes) : Prop :=
  ∃ (p : OldPart F) (n : Int) (rest : Bytes), IsLong pl n ∧ n ≤ 0 ∧ (∃ g ∈ p.geoms, g.lods ≠ []) ∧
    readNodesPart pl k file = .ok (p, layout pl [.long n] ++ rest)

end Bf2
