import Verif.DriftSpec

/-!
# What is left of the offset of a lod after centring (C187)
-/

namespace Bf2

noncomputable section

/-- The offset along an axis after moving by the negated offset, for vertices from `lo` to `hi`: none for a lod around
the origin, otherwise half the distance to the nearest vertex, or a quarter of that to the farthest one. -/
def offsetLeft (lo hi : ℝ) : ℝ :=
  if 0 < lo then min lo (hi / 2) / 2 else if hi < 0 then max hi (lo / 2) / 2 else 0

/-- The vectors with property `P` are from `lo` to `hi` along axis `i`, and reach both. -/
structure Spans (P : Vec3 F64 → Prop) (i : Fin 3) (lo hi : ℝ) : Prop where
  between : ∀ x, P x → lo ≤ (x.comp i).value ∧ ((x.comp i).value : ℝ) ≤ hi
  low : ∃ x, P x ∧ ((x.comp i).value : ℝ) = lo
  high : ∃ x, P x ∧ ((x.comp i).value : ℝ) = hi

end

end Bf2
