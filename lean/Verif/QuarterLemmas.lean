import Verif.QuarterSpec
import Verif.TurnLemmas
import Verif.TwiceLemmas
import Verif.RotErrorLemmas
import Verif.Props.Floats

/-! # Lemmas on quarter turns -/

namespace Bf2

/-- Two numbers of binary32 are equal or at least `2^-25` of the one apart. -/
theorem single_gap {u w : BitVec 32} (hu : ¬ Special32 u) (hw : ¬ Special32 w) (hne : val32 u ≠ val32 w) :
    2 ^ (-25 : ℤ) * |val32 w| ≤ |val32 u - val32 w| := by
  obtain ⟨a, e, ha, -, hp, -⟩ := val32_form hu
  obtain ⟨b, f, hb, -, hq, -⟩ := val32_form hw
  have ha' : |(a : ℚ)| ≤ 2 ^ 24 := by exact_mod_cast ha
  have hb' : |(b : ℚ)| ≤ 2 ^ 24 := by exact_mod_cast hb
  have step : ∀ (k : ℤ) (n : ℤ), val32 u - val32 w = n * (2 : ℚ) ^ k → (2 : ℚ) ^ k ≤ |val32 u - val32 w| := by
    intro k n h
    have hn : n ≠ 0 := by
      rintro rfl
      rw [Int.cast_zero, zero_mul] at h
      exact hne (sub_eq_zero.1 h)
    have h1 : (1 : ℚ) ≤ |(n : ℚ)| := by exact_mod_cast Int.one_le_abs hn
    have h2 : (0 : ℚ) < 2 ^ k := by positivity
    rw [h, abs_mul, abs_of_pos h2]
    exact le_mul_of_one_le_left h2.le h1
  have size : ∀ (n k : ℤ), |(n : ℚ)| ≤ 2 ^ 24 → |(n : ℚ) * 2 ^ k| ≤ 2 ^ 24 * 2 ^ k := by
    intro n k h
    rw [abs_mul, abs_of_pos (show (0 : ℚ) < 2 ^ k by positivity)]
    exact mul_le_mul_of_nonneg_right h (by positivity)
  have hsu := size a e ha'
  have hsw := size b f hb'
  rw [← hp] at hsu
  rw [← hq] at hsw
  rcases le_total f e with h | h
  · have h1 := step f (a * 2 ^ (e - f).toNat - b) (by
      rw [hp, hq, zpow_split e f]
      have : (2 : ℚ) ^ (e - f) = 2 ^ (e - f).toNat := by
        rw [← zpow_natCast, Int.toNat_of_nonneg (by omega)]
      rw [this]; push_cast; ring)
    have h0 : (0 : ℚ) < 2 ^ f := by positivity
    norm_num at *
    linarith
  · have h1 := step e (a - b * 2 ^ (f - e).toNat) (by
      rw [hp, hq, zpow_split f e]
      have : (2 : ℚ) ^ (f - e) = 2 ^ (f - e).toNat := by
        rw [← zpow_natCast, Int.toNat_of_nonneg (by omega)]
      rw [this]; push_cast; ring)
    have h2 := abs_sub_abs_le_abs_sub (val32 w) (val32 u)
    rw [abs_sub_comm (val32 w)] at h2
    have h0 : (0 : ℚ) < 2 ^ e := by positivity
    norm_num at *
    linarith

/-- A number of binary32 other than zero is at least `2^-149`. -/
theorem single_least {w : BitVec 32} (hw : ¬ Special32 w) (h0 : val32 w ≠ 0) : 2 ^ (-149 : ℤ) ≤ |val32 w| := by
  obtain ⟨a, e, -, he, hp, -⟩ := val32_form hw
  have ha : a ≠ 0 := by rintro rfl; exact h0 (by rw [hp]; simp)
  have h1 : (1 : ℚ) ≤ |(a : ℚ)| := by exact_mod_cast Int.one_le_abs ha
  have h2 : (2 : ℚ) ^ (-149 : ℤ) ≤ 2 ^ e := zpow_le_zpow_right₀ (by norm_num) he
  rw [hp, abs_mul, abs_of_pos (show (0 : ℚ) < 2 ^ e by positivity)]
  exact h2.trans (le_mul_of_one_le_left (by positivity) h1)

/-- What is stored for a double close to a number of binary32. -/
theorem stored_lands {y : F64} {want other t : ℚ} (fy : y.isFin = true) (ht : t ≤ 2 ^ (-300 : ℤ))
    (hw : ∃ w, ¬ Special32 w ∧ want = val32 w) (ho : ∃ w, ¬ Special32 w ∧ other = val32 w)
    (bw : |want| ≤ 2 ^ 126) (bo : |other| ≤ 2 ^ 126)
    (near : |y.value - want| ≤ 2 ^ (-49 : ℤ) * |other| + 2 ^ (-53 : ℤ) * |want| + t) :
    (unpackF (packF y)).isFin = true ∧ Lands want other (unpackF (packF y)).value := by
  obtain ⟨w, hw, rfl⟩ := hw
  obtain ⟨o, ho, rfl⟩ := ho
  have t2 : (2 : ℚ) ^ (-300 : ℤ) = 2 ^ (-151 : ℤ) * 2 ^ (-149 : ℤ) := by
    rw [← zpow_add₀ (by norm_num)]; norm_num
  have t1 : (2 : ℚ) ^ (-151 : ℤ) ≤ 2 ^ (-60 : ℤ) := zpow_le_zpow_right₀ (by norm_num) (by norm_num)
  have t3 : (0 : ℚ) < 2 ^ (-149 : ℤ) := by positivity
  have t4 : (2 : ℚ) ^ (-149 : ℤ) ≤ 1 := zpow_le_one_of_nonpos₀ (by norm_num) (by norm_num)
  have small : t ≤ 2 ^ (-60 : ℤ) * 2 ^ (-149 : ℤ) :=
    ht.trans (t2.le.trans (mul_le_mul_of_nonneg_right t1 t3.le))
  have lw : val32 w ≠ 0 → 2 ^ (-149 : ℤ) ≤ |val32 w| := single_least hw
  have lo : val32 o ≠ 0 → 2 ^ (-149 : ℤ) ≤ |val32 o| := single_least ho
  have lp : ¬ Special32 (packF y) → val32 (packF y) ≠ 0 → 2 ^ (-149 : ℤ) ≤ |val32 (packF y)| := single_least
  clear t1 t2 ht
  generalize (2 : ℚ) ^ (-149 : ℤ) = d at *
  have hy : |y.value| ≤ 2 ^ 127 := by
    have := abs_add_le (y.value - val32 w) (val32 w)
    rw [sub_add_cancel] at this
    have a0 := abs_nonneg (val32 w)
    norm_num at *
    linarith
  obtain ⟨hs, -⟩ := pack_error fy hy
  obtain ⟨f1, v1⟩ := C51_read_exact _ hs
  have n1 := pack_nearest hs w
  rw [v1]
  refine ⟨f1, ?_⟩
  have n2 : |val32 (packF y) - val32 w| ≤ 2 * |y.value - val32 w| := by
    have := abs_sub_le (val32 (packF y)) y.value (val32 w)
    rw [abs_sub_comm (val32 (packF y)) y.value] at this
    linarith
  have exact : |val32 o| ≤ 2 ^ 20 * |val32 w| → val32 (packF y) = val32 w := by
    intro h
    by_contra hne
    have gap := single_gap hs hw hne
    by_cases h0 : val32 w = 0
    · rw [h0] at h n2 near hne
      rw [abs_zero, mul_zero] at h
      have ho0 : |val32 o| = 0 := le_antisymm h (abs_nonneg _)
      have := lp hs hne
      rw [ho0, abs_zero] at near
      rw [sub_zero] at n2 near
      norm_num at *
      linarith
    · have := lw h0
      norm_num at *
      linarith
  refine ⟨exact, ?_⟩
  by_cases h : |val32 o| ≤ 2 ^ 20 * |val32 w|
  · rw [exact h, sub_self, abs_zero]
    positivity
  · have h0 : val32 o ≠ 0 := by
      intro h0
      rw [h0, abs_zero] at h
      exact h (by positivity)
    have := lo h0
    norm_num at *
    linarith

theorem single_neg {w : BitVec 32} (hw : ¬ Special32 w) : ∃ w' : BitVec 32, ¬ Special32 w' ∧ -val32 w = val32 w' := by
  have hlt := w.isLt
  refine ⟨BitVec.ofNat 32 (w.toNat + 2 ^ 31), ?_, ?_⟩
  · rw [special32_iff] at hw ⊢
    rw [BitVec.toNat_ofNat]
    omega
  · have h1 : (BitVec.ofNat 32 (w.toNat + 2 ^ 31)).toNat % 2 ^ 31 = w.toNat % 2 ^ 31 := by
      rw [BitVec.toNat_ofNat]; omega
    have h2 : sgn32 (BitVec.ofNat 32 (w.toNat + 2 ^ 31)) = !sgn32 w := by
      unfold sgn32
      rw [BitVec.toNat_ofNat]
      by_cases h : 2 ^ 31 ≤ w.toNat
      · rw [decide_eq_true h]; simp only [Bool.not_true, decide_eq_false_iff_not]; omega
      · rw [decide_eq_false h]; simp only [Bool.not_false, decide_eq_true_eq]; omega
    rw [val32_eq, val32_eq, h1, h2]
    cases sgn32 w <;> simp

theorem single_signed {b : F64} (hb : IsSingle b) {σ : ℚ} (hσ : σ = 1 ∨ σ = -1) :
    ∃ w, ¬ Special32 w ∧ σ * b.value = val32 w := by
  obtain ⟨-, w, hw, e⟩ := hb
  rcases hσ with rfl | rfl
  · exact ⟨w, hw, by rw [one_mul, e]⟩
  · rw [neg_one_mul, e]
    exact single_neg hw

theorem abs_signed {σ : ℚ} (hσ : σ = 1 ∨ σ = -1) (x : ℚ) : |σ * x| = |x| := by
  rcases hσ with rfl | rfl
  · rw [one_mul]
  · rw [neg_one_mul, abs_neg]

theorem sign_mul {σ τ : ℚ} (hσ : σ = 1 ∨ σ = -1) (hτ : τ = 1 ∨ τ = -1) : τ * σ = 1 ∨ τ * σ = -1 := by
  rcases hσ with rfl | rfl <;> rcases hτ with rfl | rfl <;> norm_num

theorem tiny_le : (2 : ℚ) ^ (-1075 : ℤ) ≤ 2 ^ (-302 : ℤ) := zpow_le_zpow_right₀ (by norm_num) (by norm_num)

/-- The product with a tiny cosine. -/
theorem mul_small {u c : F64} (fu : u.isFin = true) (fc : c.isFin = true) (bu : |u.value| ≤ 2 ^ 126)
    (hc : |c.value| ≤ 2 ^ (-50 : ℤ)) : (F64.mul u c).isFin = true ∧
      |(F64.mul u c).value| ≤ (2 ^ (-50 : ℤ) + 2 ^ (-100 : ℤ)) * |u.value| + 2 ^ (-1075 : ℤ) := by
  have h1 : |u.value * c.value| ≤ 2 ^ (-50 : ℤ) * |u.value| := by
    rw [abs_mul, mul_comm]
    exact mul_le_mul_of_nonneg_right hc (abs_nonneg _)
  have h2 : (2 : ℚ) ^ 126 ≤ 2 ^ 1020 := pow_le_pow_right₀ (by norm_num) (by norm_num)
  have h3 : |u.value * c.value| ≤ 2 ^ 126 := by
    have := abs_nonneg u.value
    norm_num at *
    linarith
  obtain ⟨f, e⟩ := (mul_rounded fu fc).error (h3.trans h2)
  refine ⟨f, ?_⟩
  have h4 := abs_sub_abs_le_abs_sub (F64.mul u c).value (u.value * c.value)
  rw [abs_sub_comm (F64.mul u c).value] at h4
  have h5 : (2 : ℚ) ^ (-100 : ℤ) = 2 ^ (-50 : ℤ) * 2 ^ (-50 : ℤ) := by norm_num
  clear h2 h3
  generalize (2 : ℚ) ^ (-1075 : ℤ) = t at *
  generalize u.value * c.value = r at *
  norm_num at *
  linarith [abs_nonneg u.value]

/-- The product with a sine of plus or minus one. -/
theorem mul_unit {b s : F64} {σ : ℚ} (hσ : σ = 1 ∨ σ = -1) (fb : b.isFin = true) (fs : s.isFin = true)
    (hs : s.value = σ) : (F64.mul b s).isFin = true ∧ (F64.mul b s).value = σ * b.value := by
  have h := mul_rounded fb fs
  rw [hs, mul_comm] at h
  rcases hσ with rfl | rfl
  · exact h.exact fb (one_mul _).symm
  · refine h.exact (z := b.negate) ?_ ?_
    · exact fb
    · rw [value_eq, value_eq]
      cases hn : b.neg <;> simp [F64.negate, hn]

/-- The sum or difference of the two. -/
theorem mix_near_of {u b c s y : F64} {σ τ p : ℚ} (hσ : σ = 1 ∨ σ = -1) (hτ : τ = 1 ∨ τ = -1) (fu : u.isFin = true)
    (fb : b.isFin = true) (fc : c.isFin = true) (fs : s.isFin = true) (bu : |u.value| ≤ 2 ^ 126)
    (bb : |b.value| ≤ 2 ^ 126) (hc : |c.value| ≤ 2 ^ (-50 : ℤ)) (hs : s.value = σ)
    (hp : |p| = |(F64.mul u c).value|) (hy : Rounded (p + τ * (F64.mul b s).value) y) : y.isFin = true ∧
      |y.value - τ * σ * b.value| ≤
        2 ^ (-49 : ℤ) * |u.value| + 2 ^ (-53 : ℤ) * |τ * σ * b.value| + 2 ^ (-300 : ℤ) := by
  obtain ⟨f1, e1⟩ := mul_small fu fc bu hc
  rw [← hp] at e1
  clear hp
  obtain ⟨f2, e2⟩ := mul_unit hσ fb fs hs
  rw [e2, ← mul_assoc] at hy
  have hw := abs_signed (sign_mul hσ hτ) b.value
  have t0 : (0 : ℚ) < 2 ^ (-302 : ℤ) := by positivity
  have t1 := tiny_le
  have t2 : (2 : ℚ) ^ (-300 : ℤ) = 4 * 2 ^ (-302 : ℤ) := by
    rw [show (-300 : ℤ) = 2 + -302 by norm_num, zpow_add₀ (by norm_num)]; norm_num
  have t3 : (2 : ℚ) ^ (-302 : ℤ) ≤ 1 := zpow_le_one_of_nonpos₀ (by norm_num) (by norm_num)
  have t4 : (2 : ℚ) ^ 128 ≤ 2 ^ 1020 := pow_le_pow_right₀ (by norm_num) (by norm_num)
  rw [t2]
  clear t2 e2
  generalize τ * σ * b.value = q at *
  have h1 := abs_add_le p q
  have hu0 := abs_nonneg u.value
  have h2 : |p + q| ≤ 2 ^ 128 := by
    generalize (2 : ℚ) ^ (-1075 : ℤ) = t at *
    generalize (2 : ℚ) ^ (-302 : ℤ) = d at *
    clear t4
    norm_num at *
    linarith
  obtain ⟨fy, ey⟩ := hy.error (h2.trans t4)
  refine ⟨fy, ?_⟩
  have h3 := abs_sub_le y.value (p + q) q
  rw [abs_sub_comm y.value (p + q), add_sub_cancel_right] at h3
  clear t4 hy
  generalize (2 : ℚ) ^ (-1075 : ℤ) = t at *
  generalize (2 : ℚ) ^ (-302 : ℤ) = d at *
  norm_num at *
  linarith [abs_nonneg u.value]

theorem mix_near {u b c s y : F64} {σ τ : ℚ} (hσ : σ = 1 ∨ σ = -1) (hτ : τ = 1 ∨ τ = -1) (fu : u.isFin = true)
    (fb : b.isFin = true) (fc : c.isFin = true) (fs : s.isFin = true) (bu : |u.value| ≤ 2 ^ 126)
    (bb : |b.value| ≤ 2 ^ 126) (hc : |c.value| ≤ 2 ^ (-50 : ℤ)) (hs : s.value = σ)
    (hy : Rounded ((F64.mul u c).value + τ * (F64.mul b s).value) y) : y.isFin = true ∧
      |y.value - τ * σ * b.value| ≤
        2 ^ (-49 : ℤ) * |u.value| + 2 ^ (-53 : ℤ) * |τ * σ * b.value| + 2 ^ (-300 : ℤ) :=
  mix_near_of hσ hτ fu fb fc fs bu bb hc hs rfl hy

end Bf2
