import Verif.DriftSpec

/-!
# Bounds near exact bounds (C186)
-/

namespace Bf2

/-- `mn` and `mx` are, up to `E`, the bounds of the origin and of the vectors with property `P` after the map `f`: they
are finite with the origin between them, no such vector is outside by more than `E`, and each coordinate is `0.0` or no
more than `E` from that of such a vector. -/
structure NearBox (E : ℝ) (f : (Fin 3 → ℝ) → Fin 3 → ℝ) (mn mx : Vec3 F64) (P : Vec3 F64 → Prop) : Prop where
  finite : mn.Finite ∧ mx.Finite
  origin : ∀ c, (mn.comp c).value ≤ 0 ∧ 0 ≤ (mx.comp c).value
  low : ∀ x, P x → ∀ c, ((mn.comp c).value : ℝ) - E ≤ f x.real.fn c
  high : ∀ x, P x → ∀ c, f x.real.fn c ≤ (mx.comp c).value + E
  reachLow : ∀ c, mn.comp c = F64.zero ∨ ∃ x, P x ∧ |((mn.comp c).value : ℝ) - f x.real.fn c| ≤ E
  reachHigh : ∀ c, mx.comp c = F64.zero ∨ ∃ x, P x ∧ |((mx.comp c).value : ℝ) - f x.real.fn c| ≤ E

end Bf2
