import Verif.OldEditSpec

/-!
# Vocabulary for joined pieces
-/

namespace Bf2

variable {F : Type}

/-- Vertex `w'` is `w` with the vectors at the given floats mapped by `R`. -/
structure TurnedVert (R : Vec3 F → Vec3 F) (os : List Nat) (w w' : List F) : Prop where
  vectors : ∀ o ∈ os, vec3At w' o = (vec3At w o).map R
  rest : ∀ c : Nat, (∀ o ∈ os, c < o ∨ o + 3 ≤ c) → w'[c]? = w[c]?

/-- A position moved by `d`; each sum is `(0 + x) + d`. -/
def shifted [FArith F] (d v : Vec3 F) : Vec3 F :=
  ⟨FArith.add (FArith.add FArith.zero v.x) d.x, FArith.add (FArith.add FArith.zero v.y) d.y,
    FArith.add (FArith.add FArith.zero v.z) d.z⟩

end Bf2
