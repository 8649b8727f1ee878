import Verif.HandSpec
import Verif.RigidLemmas

/-! # Exact edits keep signed volumes -/

namespace Bf2

noncomputable section

open Real

theorem vol3_yaw (t : ℝ) (X Y Z : Fin 3 → ℝ) :
    vol3 ((yawMat t).mulVec X) ((yawMat t).mulVec Y) ((yawMat t).mulVec Z) = vol3 X Y Z := by
  have h := sin_sq_add_cos_sq t
  simp only [vol3, yawMat, Matrix.mulVec, dotProduct, Fin.sum_univ_three, Matrix.of_apply, Matrix.cons_val]
  linear_combination (X 0 * (Y 1 * Z 2 - Y 2 * Z 1) + X 1 * (Y 2 * Z 0 - Y 0 * Z 2) +
    X 2 * (Y 0 * Z 1 - Y 1 * Z 0)) * h

theorem vol3_pitch (t : ℝ) (X Y Z : Fin 3 → ℝ) :
    vol3 ((pitchMat t).mulVec X) ((pitchMat t).mulVec Y) ((pitchMat t).mulVec Z) = vol3 X Y Z := by
  have h := sin_sq_add_cos_sq t
  simp only [vol3, pitchMat, Matrix.mulVec, dotProduct, Fin.sum_univ_three, Matrix.of_apply, Matrix.cons_val]
  linear_combination (X 0 * (Y 1 * Z 2 - Y 2 * Z 1) + X 1 * (Y 2 * Z 0 - Y 0 * Z 2) +
    X 2 * (Y 0 * Z 1 - Y 1 * Z 0)) * h

theorem vol3_roll (t : ℝ) (X Y Z : Fin 3 → ℝ) :
    vol3 ((rollMat t).mulVec X) ((rollMat t).mulVec Y) ((rollMat t).mulVec Z) = vol3 X Y Z := by
  have h := sin_sq_add_cos_sq t
  simp only [vol3, rollMat, Matrix.mulVec, dotProduct, Fin.sum_univ_three, Matrix.of_apply, Matrix.cons_val]
  linear_combination (X 0 * (Y 1 * Z 2 - Y 2 * Z 1) + X 1 * (Y 2 * Z 0 - Y 0 * Z 2) +
    X 2 * (Y 0 * Z 1 - Y 1 * Z 0)) * h

theorem exactAll_vol (ss : List Act) (X Y Z : Fin 3 → ℝ) :
    vol3 (exactAll false ss X) (exactAll false ss Y) (exactAll false ss Z) = vol3 X Y Z := by
  induction ss generalizing X Y Z with
  | nil => rfl
  | cons s ss ih =>
    refine (ih (s.exact false X) (s.exact false Y) (s.exact false Z)).trans ?_
    cases s with
    | move d => rfl
    | turn y p r =>
      simp only [Act.exact, rotMat]
      rw [← Matrix.mulVec_mulVec, ← Matrix.mulVec_mulVec, ← Matrix.mulVec_mulVec, ← Matrix.mulVec_mulVec,
        ← Matrix.mulVec_mulVec, ← Matrix.mulVec_mulVec, vol3_yaw, vol3_pitch, vol3_roll]
    | update => rfl
    | store => rfl

/-- Differences of positions are edited like normals. -/
theorem exactAll_edge (ss : List Act) (X Y : Fin 3 → ℝ) :
    exactAll true ss X - exactAll true ss Y = exactAll false ss (X - Y) := by
  induction ss generalizing X Y with
  | nil => rfl
  | cons s ss ih =>
    refine (ih (s.exact true X) (s.exact true Y)).trans ?_
    have e : s.exact true X - s.exact true Y = s.exact false (X - Y) := by
      cases s with
      | move d => simp [Act.exact]
      | turn y p r =>
        simp only [Act.exact]
        rw [← Matrix.mulVec_sub]
      | update => rfl
      | store => rfl
    rw [e]
    rfl

theorem near_edge {x y X Y : Fin 3 → ℝ} {δ : ℝ} (hx : norm3 (x - X) ≤ δ) (hy : norm3 (y - Y) ≤ δ) :
    norm3 ((x - y) - (X - Y)) ≤ 2 * δ := by
  have e : (x - y) - (X - Y) = (x - X) + (Y - y) := by abel
  rw [e]
  refine (norm3_add _ _).trans ?_
  rw [norm3_sub_comm Y y]
  linarith

theorem vol3_le (X Y Z : Fin 3 → ℝ) : |vol3 X Y Z| ≤ norm3 X * norm3 Y * norm3 Z := by
  let C : Fin 3 → ℝ := ![Y 1 * Z 2 - Y 2 * Z 1, Y 2 * Z 0 - Y 0 * Z 2, Y 0 * Z 1 - Y 1 * Z 0]
  have e : vol3 X Y Z = dot3 X C := rfl
  have hC : norm3 C ≤ norm3 Y * norm3 Z := by
    refine le_of_sq_le_sq ?_ (mul_nonneg (norm3_nonneg _) (norm3_nonneg _))
    rw [mul_pow, norm3_sq, norm3_sq, norm3_sq]
    show (Y 1 * Z 2 - Y 2 * Z 1) ^ 2 + (Y 2 * Z 0 - Y 0 * Z 2) ^ 2 + (Y 0 * Z 1 - Y 1 * Z 0) ^ 2 ≤ _
    nlinarith [sq_nonneg (Y 0 * Z 0 + Y 1 * Z 1 + Y 2 * Z 2)]
  rw [e, mul_assoc]
  exact (dot3_le X C).trans (mul_le_mul_of_nonneg_left hC (norm3_nonneg _))

theorem near_vol {x y z X Y Z : Fin 3 → ℝ} {a b c A B C : ℝ} (hx : norm3 (x - X) ≤ a) (hy : norm3 (y - Y) ≤ b)
    (hz : norm3 (z - Z) ≤ c) (bX : norm3 X ≤ A) (bY : norm3 Y ≤ B) (bZ : norm3 Z ≤ C) :
    |vol3 x y z - vol3 X Y Z| ≤ (A + a) * (B + b) * (C + c) - A * B * C := by
  have ha : 0 ≤ a := (norm3_nonneg _).trans hx
  have hb : 0 ≤ b := (norm3_nonneg _).trans hy
  have hc : 0 ≤ c := (norm3_nonneg _).trans hz
  have hA : 0 ≤ A := (norm3_nonneg _).trans bX
  have hB : 0 ≤ B := (norm3_nonneg _).trans bY
  have hC : 0 ≤ C := (norm3_nonneg _).trans bZ
  have by' : norm3 y ≤ B + b := by
    have e : y = Y + (y - Y) := by abel
    rw [e]
    exact (norm3_add _ _).trans (add_le_add bY hy)
  have bz' : norm3 z ≤ C + c := by
    have e : z = Z + (z - Z) := by abel
    rw [e]
    exact (norm3_add _ _).trans (add_le_add bZ hz)
  have e : vol3 x y z - vol3 X Y Z = vol3 (x - X) y z + (vol3 X (y - Y) z + vol3 X Y (z - Z)) := by
    simp only [vol3, Pi.sub_apply]
    ring
  have m3 : ∀ {p q r P Q R : ℝ}, p ≤ P → q ≤ Q → r ≤ R → 0 ≤ q → 0 ≤ r → 0 ≤ P → 0 ≤ Q →
      p * q * r ≤ P * Q * R := fun h1 h2 h3 q0 r0 P0 Q0 =>
    mul_le_mul (mul_le_mul h1 h2 q0 P0) h3 r0 (mul_nonneg P0 Q0)
  have h1 := (vol3_le (x - X) y z).trans (m3 hx by' bz' (norm3_nonneg _) (norm3_nonneg _) ha (add_nonneg hB hb))
  have h2 := (vol3_le X (y - Y) z).trans (m3 bX hy bz' (norm3_nonneg _) (norm3_nonneg _) hA hb)
  have h3 := (vol3_le X Y (z - Z)).trans (m3 bX bY hz (norm3_nonneg _) (norm3_nonneg _) hA hB)
  rw [e]
  refine (abs_add_le _ _).trans ((add_le_add h1 ((abs_add_le _ _).trans (add_le_add h2 h3))).trans (le_of_eq ?_))
  ring

end

end Bf2
