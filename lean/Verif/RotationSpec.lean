import Verif.Spec
import Mathlib.LinearAlgebra.UnitaryGroup
import Mathlib.Analysis.SpecialFunctions.Trigonometric.Basic

/-!
# Rotations in exact arithmetic

The textbook rotation matrices about the three axes, angles in degrees, and a vector as a function
on `Fin 3`.
-/

namespace Bf2

noncomputable section

open Real

/-- Degrees to radians. -/
def deg (x : ℝ) : ℝ := x * (π / 180)

/-- About the y axis. -/
def yawMat (t : ℝ) : Matrix (Fin 3) (Fin 3) ℝ :=
  !![cos t, 0, sin t; 0, 1, 0; -sin t, 0, cos t]

/-- About the x axis. -/
def pitchMat (t : ℝ) : Matrix (Fin 3) (Fin 3) ℝ :=
  !![1, 0, 0; 0, cos t, -sin t; 0, sin t, cos t]

/-- About the z axis. -/
def rollMat (t : ℝ) : Matrix (Fin 3) (Fin 3) ℝ :=
  !![cos t, -sin t, 0; sin t, cos t, 0; 0, 0, 1]

/-- Roll, then pitch, then yaw. -/
def rotMat (yaw pitch roll : ℝ) : Matrix (Fin 3) (Fin 3) ℝ :=
  yawMat (deg yaw) * pitchMat (deg pitch) * rollMat (deg roll)

end

/-- A vector as a function. -/
def Vec3.fn {F : Type} (v : Vec3 F) : Fin 3 → F := ![v.x, v.y, v.z]

end Bf2
