import Verif.RotSketch
import Verif.RotationSpec
import Verif.Exact
import Mathlib.Tactic.FinCases
import Mathlib.Tactic.LinearCombination

/-!
# `deprecated/rotate.py` (C130)
-/

namespace Bf2

/-- **C130.** In any arithmetic, pitch and roll make no difference to `rotate_X`: what it prints, or
whether it raises, depends on the position and the yaw only. -/
theorem C130_yaw_only {F : Type} [FArith F] [Libm F] (position : List F)
    (yaw pitch roll pitch' roll' : F) (more more' : List F) :
    sketchRotate position (yaw :: pitch :: roll :: more) =
      sketchRotate position (yaw :: pitch' :: roll' :: more') := rfl

/-- **C130.** `rotate_X` raises `IndexError` exactly when the rotation or the position has fewer than
three entries, and otherwise raises (`ValueError`) exactly when the cosine or the sine of the yaw is
undefined. -/
theorem C130_raises {F : Type} [FArith F] [Libm F] (position rotation : List F) :
    (sketchRotate position rotation = .error .indexError ↔
      rotation.length < 3 ∨ position.length < 3) ∧
    (sketchRotate position rotation = .error .valueError ↔ 3 ≤ rotation.length ∧ 3 ≤ position.length ∧
      ∃ yaw, rotation[0]? = some yaw ∧
        (Libm.cos (Libm.radians yaw) = none ∨ Libm.sin (Libm.radians yaw) = none)) ∧
    ∀ e, sketchRotate position rotation = .error e → e = .indexError ∨ e = .valueError := by
  rcases rotation with _ | ⟨yaw, _ | ⟨pitch, _ | ⟨roll, more⟩⟩⟩
  · simp [sketchRotate]
  · simp [sketchRotate]
  · simp [sketchRotate]
  rcases position with _ | ⟨x, _ | ⟨y, _ | ⟨z, rest⟩⟩⟩
  · simp [sketchRotate, sketchRz]
  · simp [sketchRotate, sketchRz]
  · simp [sketchRotate, sketchRz]
  rcases hc : Libm.cos (Libm.radians yaw) with _ | c <;>
    rcases hs : Libm.sin (Libm.radians yaw) with _ | s <;>
    simp [sketchRotate, sketchRz, sketchRy, sketchRx, cosSin, hc, hs]

/-- **C130.** With exact arithmetic, the three functions are the rotations about the x, y and z axis, and
`rotate_X` prints the point turned about z, then y, then x, by the yaw each time. -/
theorem C130_exact (p : Vec3 ℝ) (t yaw pitch roll : ℝ) (rest more : List ℝ) :
    (∃ q, sketchRx p t = .ok q ∧ q.fn = (pitchMat t).mulVec p.fn) ∧
    (∃ q, sketchRy p t = .ok q ∧ q.fn = (yawMat t).mulVec p.fn) ∧
    (∃ q, sketchRz (p.x :: p.y :: p.z :: rest) t = .ok q ∧ q.fn = (rollMat t).mulVec p.fn) ∧
    ∃ q, sketchRotate (p.x :: p.y :: p.z :: rest) (yaw :: pitch :: roll :: more) = .ok q ∧
      q.fn = (pitchMat (deg yaw) * yawMat (deg yaw) * rollMat (deg yaw)).mulVec p.fn := by
  have hx : ∀ (p : Vec3 ℝ) t, ∃ q, sketchRx p t = .ok q ∧ q.fn = (pitchMat t).mulVec p.fn := by
    intro p t
    refine ⟨_, rfl, ?_⟩
    funext i
    fin_cases i <;> simp [Vec3.fn, pitchMat, Matrix.mulVec, dotProduct, Fin.sum_univ_three,
      add_real, sub_real, mul_real] <;> ring
  have hy : ∀ (p : Vec3 ℝ) t, ∃ q, sketchRy p t = .ok q ∧ q.fn = (yawMat t).mulVec p.fn := by
    intro p t
    refine ⟨_, rfl, ?_⟩
    funext i
    fin_cases i <;> simp [Vec3.fn, yawMat, Matrix.mulVec, dotProduct, Fin.sum_univ_three,
      add_real, sub_real, mul_real] <;> ring
  have hz : ∀ (p : Vec3 ℝ) t, ∃ q, sketchRz (p.x :: p.y :: p.z :: rest) t = .ok q ∧
      q.fn = (rollMat t).mulVec p.fn := by
    intro p t
    refine ⟨_, rfl, ?_⟩
    funext i
    fin_cases i <;> simp [Vec3.fn, rollMat, Matrix.mulVec, dotProduct, Fin.sum_univ_three,
      add_real, sub_real, mul_real] <;> ring
  refine ⟨hx p t, hy p t, hz p t, ?_⟩
  obtain ⟨q1, e1, f1⟩ := hz p (deg yaw)
  obtain ⟨q2, e2, f2⟩ := hy q1 (deg yaw)
  obtain ⟨q3, e3, f3⟩ := hx q2 (deg yaw)
  refine ⟨q3, ?_, by rw [f3, f2, f1, Matrix.mulVec_mulVec, Matrix.mulVec_mulVec, Matrix.mul_assoc]⟩
  unfold sketchRotate
  dsimp only
  rw [show (Libm.radians yaw : ℝ) = deg yaw from rfl, e1]
  dsimp only
  rw [e2]
  exact e3

/-- **C130.** With exact arithmetic, `rotate_X` with yaw alone turns every point as the yaw should (and as
`rotate` of the package does) only for a yaw of whole turns, or of whole turns and three quarters. -/
theorem C130_right_iff (yaw : ℝ) :
    pitchMat (deg yaw) * yawMat (deg yaw) * rollMat (deg yaw) = rotMat yaw 0 0 ↔
      Real.cos (deg yaw) = 1 ∨ Real.sin (deg yaw) = -1 := by
  have e0 : deg 0 = 0 := by simp [deg]
  have hr : rotMat yaw 0 0 = yawMat (deg yaw) := by
    rw [rotMat, e0]
    have h1 : pitchMat 0 = 1 := by
      ext i j; fin_cases i <;> fin_cases j <;> simp [pitchMat]
    have h2 : rollMat 0 = 1 := by
      ext i j; fin_cases i <;> fin_cases j <;> simp [rollMat]
    rw [h1, h2, Matrix.mul_one, Matrix.mul_one]
  rw [hr]
  have hcs := Real.sin_sq_add_cos_sq (deg yaw)
  generalize deg yaw = t at *
  have hm : pitchMat t * yawMat t * rollMat t =
      !![Real.cos t * Real.cos t, -(Real.cos t * Real.sin t), Real.sin t;
        Real.sin t * Real.sin t * Real.cos t + Real.cos t * Real.sin t,
        -(Real.sin t * Real.sin t * Real.sin t) + Real.cos t * Real.cos t, -(Real.sin t * Real.cos t);
        -(Real.cos t * Real.sin t * Real.cos t) + Real.sin t * Real.sin t,
        Real.cos t * Real.sin t * Real.sin t + Real.sin t * Real.cos t, Real.cos t * Real.cos t] := by
    ext i j
    fin_cases i <;> fin_cases j <;>
      simp [pitchMat, yawMat, rollMat, Matrix.mul_apply, Fin.sum_univ_three]
  rw [hm, yawMat]
  generalize Real.cos t = c at *
  generalize Real.sin t = s at *
  constructor
  · intro h
    have h22 : c * c = c := by simpa using congrFun (congrFun h 2) 2
    have h11 : -(s * s * s) + c * c = 1 := by simpa using congrFun (congrFun h 1) 1
    rcases mul_eq_zero.1 (show c * (c - 1) = 0 by linear_combination h22) with hc | hc
    · right
      have hss : s ^ 2 = 1 := by rw [hc] at hcs; linear_combination hcs
      rw [hc] at h11
      linear_combination -1 * h11 - s * hss
    · left; linarith
  · rintro (rfl | rfl)
    · have hs : s = 0 := by nlinarith
      subst hs
      ext i j; fin_cases i <;> fin_cases j <;> simp
    · have hc : c = 0 := by nlinarith
      subst hc
      ext i j; fin_cases i <;> fin_cases j <;> simp

/-- **C130.** The point and the rotation written into the script: a quarter turn of (5, 0, 5).  It is
printed unchanged, where the turn about the vertical axis takes it to (5, 0, -5). -/
theorem C130_the_run : sketchRotate [5, 0, 5] [90, 0, 0] = .ok (⟨5, 0, 5⟩ : Vec3 ℝ) ∧
    (rotMat 90 0 0).mulVec ![5, 0, 5] = ![5, 0, -5] := by
  have hd : (Libm.radians (90 : ℝ) : ℝ) = Real.pi / 2 := by
    show (90 : ℝ) * (Real.pi / 180) = _
    ring
  have h90 : deg 90 = Real.pi / 2 := hd
  have e0 : deg 0 = 0 := by simp [deg]
  constructor
  · have hc : cosSin (Libm.radians (90 : ℝ)) = .ok ((0 : ℝ), (1 : ℝ)) := by
      rw [hd]
      show Except.ok (Real.cos (Real.pi / 2), Real.sin (Real.pi / 2)) = _
      rw [Real.cos_pi_div_two, Real.sin_pi_div_two]
    simp [sketchRotate, sketchRz, sketchRy, sketchRx, hc, add_real, sub_real, mul_real]
  · rw [rotMat, h90, e0]
    funext i
    fin_cases i <;> simp [yawMat, pitchMat, rollMat, Matrix.mulVec, Matrix.mul_apply, dotProduct,
      Fin.sum_univ_three]

/-- A yaw of three quarters is one of the exceptions of `C130_right_iff`, a quarter is not. -/
example : Real.sin (deg 270) = -1 ∧ ¬ (Real.cos (deg 90) = 1 ∨ Real.sin (deg 90) = -1) := by
  have h1 : deg 270 = Real.pi / 2 + Real.pi := by unfold deg; ring
  have h2 : deg 90 = Real.pi / 2 := by unfold deg; ring
  rw [h1, h2, Real.sin_add_pi, Real.sin_pi_div_two, Real.cos_pi_div_two]
  norm_num

end Bf2
