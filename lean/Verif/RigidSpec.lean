import Verif.DriftSpec

/-!
# Angles between vectors (C183)
-/

namespace Bf2

/-- The scalar product: the product of the lengths and the cosine of the angle between. -/
def dot3 (X Y : Fin 3 → ℝ) : ℝ := X 0 * Y 0 + X 1 * Y 1 + X 2 * Y 2

end Bf2
