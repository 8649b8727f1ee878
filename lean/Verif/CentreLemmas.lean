import Verif.CentreSpec
import Verif.BoundsDriftLemmas

/-! # Lemmas for C187 -/

namespace Bf2

noncomputable section

/-- The middle of two doubles. -/
theorem mid_near {a b : F64} {A : ℝ} (ha : a.isFin = true) (hb : b.isFin = true) (la : |(a.value : ℝ)| ≤ A)
    (lb : |(b.value : ℝ)| ≤ A) (big : A ≤ 2 ^ 200) : (F64.half (F64.add a b)).isFin = true ∧
      |((F64.half (F64.add a b)).value : ℝ) - (a.value + b.value) / 2| ≤ 2 ^ (-51 : ℤ) * A + 2 ^ (-1074 : ℤ) := by
  have A0 : 0 ≤ A := (abs_nonneg _).trans la
  have big2 : (4 : ℝ) * 2 ^ 200 ≤ 2 ^ 1020 := by
    have e : (2 : ℝ) ^ 1020 = 2 ^ 820 * 2 ^ 200 := by rw [← pow_add]
    rw [e]
    have : (4 : ℝ) ≤ 2 ^ 820 := by
      calc (4 : ℝ) = 2 ^ 2 := by norm_num
        _ ≤ 2 ^ 820 := pow_le_pow_right₀ (by norm_num) (by norm_num)
    exact mul_le_mul_of_nonneg_right this (by positivity)
  have h2 : (4 : ℝ) * A ≤ 2 ^ 1020 := (mul_le_mul_of_nonneg_left big (by norm_num)).trans big2
  have hs : |((a.value + b.value : ℚ) : ℝ)| ≤ 2 * A := by
    rw [Rat.cast_add]
    exact (abs_add_le _ _).trans (by linarith)
  obtain ⟨f1, e1⟩ := (add_rounded ha hb).real_error hs
    ((show 2 * A ≤ 4 * A by linarith).trans h2)
  rw [Rat.cast_add] at e1 hs
  have u : uR ≤ 1 := by unfold uR; norm_num
  have u0 : 0 ≤ uR := by unfold uR; positivity
  have t0 : 0 ≤ etaR := by unfold etaR; positivity
  have s1 : |((F64.add a b).value : ℝ)| ≤ 2 * A + (2 * A * uR + etaR) := by
    have := abs_sub_abs_le_abs_sub ((F64.add a b).value : ℝ) (a.value + b.value)
    linarith
  have hh : |(((F64.add a b).value / 2 : ℚ) : ℝ)| ≤ A + (A * uR + etaR / 2) := by
    rw [Rat.cast_div, Rat.cast_ofNat, abs_div, abs_of_pos (show (0 : ℝ) < 2 by norm_num)]
    linarith
  have tiny : etaR ≤ 1 := by
    unfold etaR
    exact zpow_le_one_of_nonpos₀ (by norm_num) (by norm_num)
  have hA : A * uR ≤ A := by nlinarith
  have h3 : A + (A * uR + etaR / 2) ≤ 4 * 2 ^ 200 := by
    have : (1 : ℝ) ≤ 2 ^ 200 := one_le_pow₀ (by norm_num)
    linarith
  obtain ⟨f2, e2⟩ := (half_rounded f1).real_error hh (h3.trans big2)
  refine ⟨f2, ?_⟩
  rw [Rat.cast_div, Rat.cast_ofNat] at e2
  have split := abs_sub_le ((F64.half (F64.add a b)).value : ℝ) ((F64.add a b).value / 2) ((a.value + b.value) / 2)
  have e3 : |((F64.add a b).value : ℝ) / 2 - (a.value + b.value) / 2| ≤ A * uR + etaR / 2 := by
    rw [← sub_div, abs_div, abs_of_pos (show (0 : ℝ) < 2 by norm_num)]
    linarith
  have hu : uR = 2 ^ (-51 : ℤ) / 4 := by unfold uR; norm_num
  have ht : etaR = 2 ^ (-1074 : ℤ) / 2 := by
    unfold etaR
    rw [show (-1074 : ℤ) = -1075 + 1 by norm_num, zpow_add₀ (by norm_num), zpow_one]
    ring
  have b1 : (A + (A * uR + etaR / 2)) * uR ≤ 2 * A * uR + etaR / 2 := by nlinarith
  rw [ht] at b1 e3 e2
  have e4 : A * uR = 2 ^ (-51 : ℤ) * A / 4 := by rw [hu]; ring
  have p0 : 0 ≤ (2 : ℝ) ^ (-1074 : ℤ) := by positivity
  have p1 : 0 ≤ (2 : ℝ) ^ (-51 : ℤ) * A := by positivity
  clear big2 h2 h3 ht hu
  generalize (2 : ℝ) ^ (-1074 : ℤ) = t at *
  generalize (2 : ℝ) ^ (-51 : ℤ) * A = s at *
  linarith

/-- Updated bounds of vectors from `lo` to `hi`, moved by `t`. -/
theorem NearBox.spans {E : ℝ} {f : (Fin 3 → ℝ) → Fin 3 → ℝ} {mn mx : Vec3 F64} {P : Vec3 F64 → Prop}
    (h : NearBox E f mn mx P) (E0 : 0 ≤ E) {i : Fin 3} {lo hi t : ℝ} (s : Spans P i lo hi)
    (hf : ∀ x : Vec3 F64, f x.real.fn i = (x.comp i).value + t) :
    |((mn.comp i).value : ℝ) - min 0 (lo + t)| ≤ E ∧ |((mx.comp i).value : ℝ) - max 0 (hi + t)| ≤ E := by
  obtain ⟨o1, o2⟩ := h.origin i
  have o1 : ((mn.comp i).value : ℝ) ≤ 0 := by exact_mod_cast o1
  have o2 : (0 : ℝ) ≤ (mx.comp i).value := by exact_mod_cast o2
  obtain ⟨x, hx, ex⟩ := s.low
  obtain ⟨y, hy, ey⟩ := s.high
  have l := h.low x hx i
  have r := h.high y hy i
  rw [hf, ex] at l
  rw [hf, ey] at r
  constructor
  · have lower : min 0 (lo + t) - E ≤ (mn.comp i).value := by
      rcases h.reachLow i with e | ⟨z, hz, e⟩
      · rw [e, zero_value, Rat.cast_zero]
        linarith [min_le_left 0 (lo + t)]
      · rw [hf] at e
        linarith [(abs_le.1 e).1, (s.between z hz).1, min_le_right 0 (lo + t)]
    rw [abs_le]
    refine ⟨by linarith, ?_⟩
    rcases min_choice 0 (lo + t) with e | e <;> rw [e] <;> linarith
  · have upper : (mx.comp i).value ≤ max 0 (hi + t) + E := by
      rcases h.reachHigh i with e | ⟨z, hz, e⟩
      · rw [e, zero_value, Rat.cast_zero]
        linarith [le_max_left 0 (hi + t)]
      · rw [hf] at e
        linarith [(abs_le.1 e).2, (s.between z hz).2, le_max_right 0 (hi + t)]
    rw [abs_le]
    refine ⟨?_, by linarith⟩
    rcases max_choice 0 (hi + t) with e | e <;> rw [e] <;> linarith

/-- The exact offset after the move. -/
theorem offsetLeft_eq {lo hi : ℝ} (le : lo ≤ hi) :
    (min 0 (lo - (min 0 lo + max 0 hi) / 2) + max 0 (hi - (min 0 lo + max 0 hi) / 2)) / 2 = offsetLeft lo hi := by
  unfold offsetLeft
  split
  · next h =>
    have h2 : 0 < hi := h.trans_le le
    rw [min_eq_left h.le, max_eq_right h2.le, zero_add, max_eq_right (show (0 : ℝ) ≤ hi - hi / 2 by linarith)]
    rcases le_total lo (hi / 2) with h3 | h3
    · rw [min_eq_right (by linarith), min_eq_left h3]; ring
    · rw [min_eq_left (by linarith), min_eq_right h3]; ring
  · next h =>
    have h := not_lt.1 h
    rw [min_eq_right h]
    split
    · next h2 =>
      rw [max_eq_left h2.le, add_zero, min_eq_right (show lo - lo / 2 ≤ 0 by linarith)]
      rcases le_total hi (lo / 2) with h3 | h3
      · rw [max_eq_left (by linarith), max_eq_right h3]; ring
      · rw [max_eq_right (by linarith), max_eq_left h3]; ring
    · next h2 =>
      have h2 := not_lt.1 h2
      rw [max_eq_right h2, min_eq_right (by linarith), max_eq_right (by linarith)]
      ring

/-- Moving by nearly the exact offset. -/
theorem near_min {a t t' δ : ℝ} (h : |t - t'| ≤ δ) : |min 0 (a + t) - min 0 (a + t')| ≤ δ := by
  refine (abs_min_sub_min_le_max _ _ _ _).trans ?_
  rw [sub_self, abs_zero, add_sub_add_left_eq_sub]
  exact max_le ((abs_nonneg _).trans h) h

theorem near_max {a t t' δ : ℝ} (h : |t - t'| ≤ δ) : |max 0 (a + t) - max 0 (a + t')| ≤ δ := by
  refine (abs_max_sub_max_le_max _ _ _ _).trans ?_
  rw [sub_self, abs_zero, add_sub_add_left_eq_sub]
  exact max_le ((abs_nonneg _).trans h) h

end

end Bf2
