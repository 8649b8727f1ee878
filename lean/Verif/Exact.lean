import Verif.Edit
import Mathlib.Analysis.SpecialFunctions.Trigonometric.Basic

/-!
# Exact arithmetic

Real numbers in place of floats, for the statements that are about the mathematics of an operation
and not about rounding.
-/

namespace Bf2

noncomputable section

open Classical in
instance : FArith ℝ := ⟨0, (· + ·), (· - ·), (· * ·), (· / 2), fun x y => decide (x < y)⟩

instance : Libm ℝ := ⟨fun x => x * (Real.pi / 180), fun x => some (Real.sin x), fun x => some (Real.cos x)⟩

theorem add_real (x y : ℝ) : FArith.add x y = x + y := rfl
theorem sub_real (x y : ℝ) : FArith.sub x y = x - y := rfl
theorem mul_real (x y : ℝ) : FArith.mul x y = x * y := rfl

end

end Bf2
