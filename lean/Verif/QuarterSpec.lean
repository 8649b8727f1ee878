import Verif.TurnSpec
import Verif.NarrowSpec

/-! # A quarter turn -/

namespace Bf2

/-- An angle in degrees whose sine the C library gives as exactly `σ` (plus or minus one) and whose cosine as
something no larger than `2^-50`. The double nearest to a right angle in radians is not a right angle, so the
cosine of 90 degrees is about `6.1e-17` and not zero. -/
def QuarterTurn [Libm F64] (σ : ℚ) (a : F64) : Prop :=
  (σ = 1 ∨ σ = -1) ∧ ∃ c s : F64, Libm.cos (Libm.radians a) = some c ∧ Libm.sin (Libm.radians a) = some s ∧
    c.isFin = true ∧ s.isFin = true ∧ |c.value| ≤ 2 ^ (-50 : ℤ) ∧ s.value = σ

/-- `got` is where `want` belongs, `other` being the coordinate it was mixed with: exactly `want`, unless `other`
is more than a million times larger, and never off by more than `2^-46` of `other`. -/
def Lands (want other got : ℚ) : Prop :=
  (|other| ≤ 2 ^ 20 * |want| → got = want) ∧ |got - want| ≤ 2 ^ (-46 : ℤ) * |other|

/-- A vector of numbers of binary32, none larger than `2^126`. -/
def Vec3.Single (x : Vec3 F64) : Prop :=
  ∀ c ∈ [x.x, x.y, x.z], IsSingle c ∧ |c.value| ≤ 2 ^ 126

end Bf2
