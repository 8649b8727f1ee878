import Verif.Spec

/-! # Specification for C125 -/

namespace Bf2

variable {F : Type}

/-- Kind `k` has the same fields as the kind of the mesh: both skinned or both not, and if not, both
bundled or both not, unless no lod has nodes. -/
def KindAgrees (m : Mesh F) (k : Kind) : Prop :=
  k.isSkinned = m.kind.isSkinned ∧ (k.isSkinned = true ∨ k.isBundled = m.kind.isBundled ∨
    ∀ g ∈ m.geoms, ∀ l ∈ g.lods, l.nodenum ≤ 0)

end Bf2
