import Verif.Spec

/-! # What correct rounding is -/

namespace Bf2

/-- `y` is the number `r` correctly rounded to a double: it is infinite exactly when `|r|` is at least
half a unit above the largest double; it has the sign of `r`; otherwise no double is nearer, and when
another one is as near, the last bit of `y` is 0. -/
structure Rounded (r : ℚ) (y : F64) : Prop where
  notNaN : y.isNaN = false
  overflow : y.isInf = true ↔ (2 ^ 1024 - 2 ^ 970 : ℚ) ≤ |r|
  sign : (r < 0 → y.neg = true) ∧ (0 < r → y.neg = false)
  nearest : y.isFin = true → ∀ z : F64, z.isFin = true → |r - y.value| ≤ |r - z.value|
  even : y.isFin = true → ∀ z : F64, z.isFin = true → z.value ≠ y.value →
    |r - z.value| ≤ |r - y.value| → y.mag % 2 = 0

end Bf2
