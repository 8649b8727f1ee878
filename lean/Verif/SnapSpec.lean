import Verif.RotErrorSpec
import Verif.NarrowSpec

/-! # Vectors turned to numbers of binary32 -/

namespace Bf2

/-- A finite number of binary32. -/
def Binary32 (w : ℚ) : Prop := ∃ b : BitVec 32, ¬ Special32 b ∧ w = val32 b

/-- A multiple of 90 degrees. -/
def RightAngle (a : F64) : Prop := ∃ k : ℤ, a.value = 90 * k

/-- A vector of numbers of binary32, each at least `2^-18` of its length. -/
def Stout (x : Vec3 F64) : Prop :=
  ∀ c ∈ [x.x, x.y, x.z], IsSingle c ∧ x.real.len ≤ 2 ^ 18 * |(c.value : ℝ)|

end Bf2
