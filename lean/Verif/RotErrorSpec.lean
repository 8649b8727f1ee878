import Verif.Edit
import Verif.Spec
import Verif.RotationSpec

/-! # What "close to the exact rotation" means -/

namespace Bf2

open Real

noncomputable section

/-- The real vector a vector of doubles stands for. -/
def Vec3.real (v : Vec3 F64) : Vec3 ℝ := ⟨(v.x.value : ℝ), (v.y.value : ℝ), (v.z.value : ℝ)⟩

/-- No component is infinite or not a number. -/
def Vec3.Finite (v : Vec3 F64) : Prop := v.x.isFin = true ∧ v.y.isFin = true ∧ v.z.isFin = true

/-- Euclidean length. -/
def Vec3.len (v : Vec3 ℝ) : ℝ := √(v.x ^ 2 + v.y ^ 2 + v.z ^ 2)

/-- What the C library gives for an angle of `a` degrees: a cosine and a sine that are at most 1 and
within `ε` of the real ones. -/
def TrigWithin [Libm F64] (ε : ℝ) (a : F64) : Prop :=
  ∃ c s : F64, Libm.cos (Libm.radians a) = some c ∧ Libm.sin (Libm.radians a) = some s ∧
    c.isFin = true ∧ s.isFin = true ∧ |(c.value : ℝ)| ≤ 1 ∧ |(s.value : ℝ)| ≤ 1 ∧
    |(c.value : ℝ) - cos (deg a.value)| ≤ ε ∧ |(s.value : ℝ) - sin (deg a.value)| ≤ ε

end

end Bf2
