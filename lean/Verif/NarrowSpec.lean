import Verif.Spec

/-! # What correct rounding to binary32 is -/

namespace Bf2

/-- `w` is the number `r` correctly rounded to binary32: it is infinite exactly when `|r|` is at least half a unit
above the largest finite number; it has the sign of `r`; otherwise no finite number of binary32 is nearer, and
when another one is as near, the last bit of `w` is 0. -/
structure Rounded32 (r : ℚ) (w : BitVec 32) : Prop where
  overflow : Special32 w ↔ (2 ^ 128 - 2 ^ 103 : ℚ) ≤ |r|
  infinite : Special32 w → w = if r < 0 then 0xff800000 else 0x7f800000
  sign : (r < 0 → w.msb = true) ∧ (0 < r → w.msb = false)
  nearest : ¬ Special32 w → ∀ z : BitVec 32, ¬ Special32 z → |r - val32 w| ≤ |r - val32 z|
  even : ¬ Special32 w → ∀ z : BitVec 32, ¬ Special32 z → val32 z ≠ val32 w →
    |r - val32 z| ≤ |r - val32 w| → w.toNat % 2 = 0

/-- A finite double that is a number of binary32: what a finite word of a file is read as, every integer up to
`2^24`, and quotients of such integers by powers of two. -/
def IsSingle (x : F64) : Prop := x.isFin = true ∧ ∃ w : BitVec 32, ¬ Special32 w ∧ x.value = val32 w

end Bf2
