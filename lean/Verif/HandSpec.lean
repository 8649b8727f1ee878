import Verif.DriftSpec

/-!
# Sides and signed volumes (C185)
-/

namespace Bf2

/-- The signed volume of the parallelepiped spanned by three vectors: positive if they are oriented like the axes.
With two edges of a triangle and a vector, it says to which side of the triangle the vector points. -/
def vol3 (X Y Z : Fin 3 → ℝ) : ℝ :=
  X 0 * (Y 1 * Z 2 - Y 2 * Z 1) + X 1 * (Y 2 * Z 0 - Y 0 * Z 2) + X 2 * (Y 0 * Z 1 - Y 1 * Z 0)

end Bf2
