import Verif.RigidSpec
import Verif.AlignLemmas

/-! # Exact edits keep distances and angles -/

namespace Bf2

noncomputable section

theorem exactAll_diff (pos : Bool) (ss : List Act) (X Y : Fin 3 → ℝ) :
    norm3 (exactAll pos ss X - exactAll pos ss Y) = norm3 (X - Y) := by
  induction ss generalizing X Y with
  | nil => rfl
  | cons s ss ih =>
    refine (ih (s.exact pos X) (s.exact pos Y)).trans ?_
    cases s with
    | move d => cases pos <;> simp [Act.exact]
    | turn y p r =>
      simp only [Act.exact]
      rw [← Matrix.mulVec_sub, norm3_rot]
    | update => rfl
    | store => rfl

theorem norm3_sub_comm (X Y : Fin 3 → ℝ) : norm3 (X - Y) = norm3 (Y - X) := by
  unfold norm3
  simp only [Pi.sub_apply]
  congr 1
  ring

/-- Two points near two others. -/
theorem near_diff {x y X Y : Fin 3 → ℝ} {δ : ℝ} (hx : norm3 (x - X) ≤ δ) (hy : norm3 (y - Y) ≤ δ) :
    |norm3 (x - y) - norm3 (X - Y)| ≤ 2 * δ := by
  have h1 : norm3 (x - y) ≤ norm3 (x - X) + norm3 (X - Y) + norm3 (Y - y) := by
    have e : x - y = (x - X) + (X - Y) + (Y - y) := by abel
    rw [e]
    exact (norm3_add _ _).trans (add_le_add_left (norm3_add _ _) _)
  have h2 : norm3 (X - Y) ≤ norm3 (X - x) + norm3 (x - y) + norm3 (y - Y) := by
    have e : X - Y = (X - x) + (x - y) + (y - Y) := by abel
    rw [e]
    exact (norm3_add _ _).trans (add_le_add_left (norm3_add _ _) _)
  rw [norm3_sub_comm Y y] at h1
  rw [norm3_sub_comm X x] at h2
  rw [abs_le]
  constructor <;> linarith

theorem dot3_polar (X Y : Fin 3 → ℝ) : 2 * dot3 X Y = norm3 (X + Y) ^ 2 - norm3 X ^ 2 - norm3 Y ^ 2 := by
  rw [norm3_sq, norm3_sq, norm3_sq]
  simp only [Pi.add_apply, dot3]
  ring

theorem dot3_rot (y p r : ℝ) (X Y : Fin 3 → ℝ) :
    dot3 ((rotMat y p r).mulVec X) ((rotMat y p r).mulVec Y) = dot3 X Y := by
  have h := dot3_polar ((rotMat y p r).mulVec X) ((rotMat y p r).mulVec Y)
  rw [← Matrix.mulVec_add, norm3_rot, norm3_rot, norm3_rot, ← dot3_polar] at h
  linarith

theorem exactAll_dot (ss : List Act) (X Y : Fin 3 → ℝ) :
    dot3 (exactAll false ss X) (exactAll false ss Y) = dot3 X Y := by
  induction ss generalizing X Y with
  | nil => rfl
  | cons s ss ih =>
    refine (ih (s.exact false X) (s.exact false Y)).trans ?_
    cases s with
    | move d => rfl
    | turn y p r => exact dot3_rot _ _ _ _ _
    | update => rfl
    | store => rfl

theorem dot3_le (X Y : Fin 3 → ℝ) : |dot3 X Y| ≤ norm3 X * norm3 Y := by
  have hx := norm3_nonneg X
  have hy := norm3_nonneg Y
  refine abs_le_of_sq_le_sq ?_ (mul_nonneg hx hy)
  rw [mul_pow, norm3_sq, norm3_sq]
  unfold dot3
  nlinarith [sq_nonneg (X 0 * Y 1 - X 1 * Y 0), sq_nonneg (X 0 * Y 2 - X 2 * Y 0), sq_nonneg (X 1 * Y 2 - X 2 * Y 1)]

theorem near_dot {x y X Y : Fin 3 → ℝ} {δ B : ℝ} (hx : norm3 (x - X) ≤ δ) (hy : norm3 (y - Y) ≤ δ)
    (bX : norm3 X ≤ B) (bY : norm3 Y ≤ B) : |dot3 x y - dot3 X Y| ≤ δ * (2 * B + δ) := by
  have hd : 0 ≤ δ := (norm3_nonneg _).trans hx
  have hB : 0 ≤ B := (norm3_nonneg _).trans bX
  have bx : norm3 x ≤ B + δ := by
    have e : x = X + (x - X) := by abel
    rw [e]
    exact (norm3_add _ _).trans (add_le_add bX hx)
  have e : dot3 x y - dot3 X Y = dot3 (x - X) Y + dot3 x (y - Y) := by
    simp only [dot3, Pi.sub_apply]
    ring
  rw [e]
  refine (abs_add_le _ _).trans ?_
  have h1 : |dot3 (x - X) Y| ≤ δ * B :=
    (dot3_le _ _).trans (mul_le_mul hx bY (norm3_nonneg _) hd)
  have h2 : |dot3 x (y - Y)| ≤ (B + δ) * δ :=
    (dot3_le _ _).trans (mul_le_mul bx hy (norm3_nonneg _) (add_nonneg hB hd))
  nlinarith

end

end Bf2
