import Verif.DriftSpec
import Verif.SnapSpec

/-! # Edits that stay within binary32 -/

namespace Bf2

/-- An edit; turns are saved, with loading again, before the next one. -/
inductive Block where
  | move (d : Vec3 F64)
  | turn (yaw pitch roll : F64)
  | update
  | store

/-- The calls it consists of. -/
def Block.acts : Block → List Act
  | .move d => [.move d]
  | .turn y p r => [.turn y p r, .store]
  | .update => [.update]
  | .store => [.store]

/-- The distances are finite, the cosines and sines of the angles off by no more than `2^-50`. -/
def Block.Fine [Libm F64] : Block → Prop
  | .move d => d.Finite
  | .turn y p r => ∃ ε : ℝ, ε ≤ 2 ^ (-50 : ℤ) ∧ TrigWithin ε y ∧ TrigWithin ε p ∧ TrigWithin ε r
  | _ => True

/-- How small beside the vector a coordinate may be: only turns are a matter of size. -/
def Block.Keeps (X : Fin 3 → ℝ) (w : ℚ) : Block → Prop
  | .turn _ _ _ => norm3 X ≤ 2 ^ 18 * |(w : ℝ)|
  | _ => True

/-- Finite numbers of binary32 up to `2^118`. -/
def Exactly (X : Fin 3 → ℝ) : Prop := ∀ i, ∃ w : ℚ, Binary32 w ∧ X i = w ∧ |(w : ℝ)| ≤ 2 ^ 118

/-- In exact arithmetic, every edit leads to numbers of binary32 up to `2^118`, turns to none that is below
`2^-18` of the length of the vector. -/
def Clean (pos : Bool) : List Block → (Fin 3 → ℝ) → Prop
  | [], _ => True
  | b :: bs, X => Exactly (exactAll pos b.acts X) ∧
      (∀ i w, exactAll pos b.acts X i = (w : ℚ) → b.Keeps X w) ∧ Clean pos bs (exactAll pos b.acts X)

end Bf2
