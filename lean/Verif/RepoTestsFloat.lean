import Verif.FloatArith
import Verif.EqualLemmas
import Verif.ReadmeLemmas

/-!
# Adding a number and taking it away again, in doubles

For the translate test (C122).
-/

namespace Bf2

/-- A number of at most 53 bits in the range of doubles is a double. -/
theorem exists_double {r : ℚ} {n : ℤ} {k : ℤ} (hn : |n| ≤ 2 ^ 53) (hk : -1074 ≤ k) (hk' : k ≤ 970)
    (hr : r = n * 2 ^ k) : ∃ z : F64, z.isFin = true ∧ z.value = r := by
  have hpos : (0 : ℚ) < 2 ^ k := two_zpow_pos k
  have habs : |r| = (n.natAbs : ℚ) * 2 ^ k := by
    rw [hr, abs_mul, abs_of_pos hpos, Nat.cast_natAbs]
    push_cast
    rfl
  have hna : n.natAbs ≤ 2 ^ 53 := by
    have : (n.natAbs : ℤ) ≤ 2 ^ 53 := by rw [Int.natCast_natAbs]; exact hn
    exact_mod_cast this
  have hex := rndMag_exact 52 (-1074) (abs_nonneg r) n.natAbs k hna hk habs
  have hlt : ¬ (2 ^ 1024 - 2 ^ 970 : ℚ) ≤ |r| := by
    have h1 : (2 : ℚ) ^ k ≤ 2 ^ (970 : ℤ) := zpow_le_zpow_right₀ (by norm_num) hk'
    have h2 : (n.natAbs : ℚ) ≤ 2 ^ 53 := by exact_mod_cast hna
    have h3 : |r| ≤ 2 ^ 53 * 2 ^ (970 : ℤ) := by
      rw [habs]
      exact mul_le_mul h2 h1 hpos.le (by norm_num)
    have h4 : (2 : ℚ) ^ (970 : ℤ) = 2 ^ 970 := zpow_ofNat 2 970
    rw [h4] at h3
    have h5 : (2 : ℚ) ^ 1024 = 2 ^ 54 * 2 ^ 970 := by rw [← pow_add]
    have h6 : (0 : ℚ) < 2 ^ 970 := by positivity
    rw [h5]
    intro h7
    generalize (2 : ℚ) ^ 970 = u at h3 h6 h7
    norm_num at h3 h7
    linarith
  obtain ⟨s, hs, h1, h2, -⟩ := ofRat_form false r
  obtain ⟨hov, hmin⟩ := encMag_rounded (abs_nonneg r)
  have hne : min inf64 (encMag 52 (-1074) |r|) < inf64 := by
    have : ¬ min inf64 (encMag 52 (-1074) |r|) = inf64 := fun h => hlt (hov.1 h)
    omega
  have hm : (F64.ofRat false r).mag = encMag 52 (-1074) |r| := by
    rw [hs, F64.mk'_mag (by omega), hmin hne]
  have hneg : (F64.ofRat false r).neg = s := by rw [hs]; rfl
  refine ⟨F64.ofRat false r, ?_, ?_⟩
  · simp only [F64.isFin, decide_eq_true_eq]
    rw [hm, ← hmin hne]
    exact hne
  · rw [value_eq, hm, hneg, dec_enc 52 (-1074) (abs_nonneg r), hex]
    rcases lt_trichotomy r 0 with h | h | h
    · rw [h1 h, abs_of_neg h]; simp
    · subst h; simp
    · rw [h2 h, abs_of_pos h]; simp

/-- If the sum is a double, subtracting gives the number back. -/
theorem add_sub_exact {x d z : F64} (hx : x.isFin = true) (hd : d.isFin = true) (hz : z.isFin = true)
    (hv : z.value = x.value + d.value) : NumEq (F64.sub (F64.add x d) d) x := by
  obtain ⟨h1, h2⟩ := (add_rounded hx hd).exact hz hv
  have h3 : x.value = (F64.add x d).value - d.value := by rw [h2]; ring
  obtain ⟨h4, h5⟩ := (sub_rounded h1 hd).exact hx h3
  exact .inl ⟨h4, hx, by rw [h5, ← h3]⟩

theorem sub_eq_add {x y : F64} (hx : x.isNaN = false) (hy : y.isNaN = false) :
    F64.sub x y = F64.add x y.negate := by
  unfold F64.sub F64.nanOr
  rw [if_neg (by simp [hx]), if_neg (by simp [hy])]

theorem add_sub_inf {x d : F64} (hx : x.isInf = true) (hd : d.isFin = true) :
    NumEq (F64.sub (F64.add x d) d) x := by
  have h1 : F64.add x d = x := (add_special x d).2.1 hx hd
  have hn : x.isNaN = false := by
    simp only [F64.isInf, F64.isNaN, decide_eq_true_eq, decide_eq_false_iff_not] at *
    omega
  have hn' : d.isNaN = false := by
    simp only [F64.isFin, F64.isNaN, decide_eq_true_eq, decide_eq_false_iff_not] at *
    omega
  rw [h1, sub_eq_add hn hn', (add_special x d.negate).2.1 hx hd]
  exact .inr ⟨hx, hx, rfl⟩

theorem add_sub_nan {x d : F64} (hx : x.isNaN = true) : ¬ NumEq (F64.sub (F64.add x d) d) x := by
  simp only [F64.isNaN, decide_eq_true_eq] at hx
  rintro (⟨-, h, -⟩ | ⟨-, h, -⟩) <;>
    simp only [F64.isFin, F64.isInf, decide_eq_true_eq] at h <;> omega

theorem not_nan_cases {x : F64} (h : x.isNaN = false) : x.isFin = true ∨ x.isInf = true := by
  simp only [F64.isNaN, F64.isFin, F64.isInf, decide_eq_true_eq, decide_eq_false_iff_not] at *
  omega

/-- `x + 0.0 - 0.0 == x`, if `x` is no NaN. -/
theorem add_sub_zero {x : F64} (h : x.isNaN = false) :
    NumEq (F64.sub (F64.add x F64.zero) F64.zero) x := by
  have hz : F64.zero.isFin = true := by decide
  have hv : F64.zero.value = 0 := by rw [value_eq]; simp [F64.zero, F64.mk', decMag]
  rcases not_nan_cases h with h | h
  · exact add_sub_exact h hz h (by rw [hv, add_zero])
  · exact add_sub_inf h hz

/-- A finite float of a file: a number of 24 bits. -/
theorem binary32_form {x : F64} (hx : rnd32 x = x) (hf : x.isFin = true) :
    ∃ (n : ℤ) (e : ℤ), |n| < 2 ^ 24 ∧ -149 ≤ e ∧ x.value = n * 2 ^ e := by
  have hm := unpackF_mag (packF x)
  have hs := unpackF_neg (packF x)
  rw [show unpackF (packF x) = x from hx] at hm hs
  simp only [F64.isFin, decide_eq_true_eq] at hf
  have hlt : (packF x).toNat % 2 ^ 31 < inf32 := by
    by_contra h
    unfold unpackMag at hm
    rw [if_neg h] at hm
    split at hm
    · omega
    · rw [hm] at hf
      split at hf <;> omega
  obtain ⟨-, h2⟩ := unpack_fin hlt
  have hm' : x.mag = encMag 52 (-1074) (decMag 23 (-149) ((packF x).toNat % 2 ^ 31)) := by
    rw [hm]; unfold unpackMag; rw [if_pos hlt]
  obtain ⟨m, e, h3, h4, h5, -⟩ := decMag_form 23 (-149) ((packF x).toNat % 2 ^ 31)
  have h3' : ((m : ℤ)) < 2 ^ 24 := by exact_mod_cast h3
  rw [value_eq, hm', h2, h5]
  cases x.neg
  · exact ⟨m, e, by rw [abs_of_nonneg (by positivity)]; exact h3', h4, by simp⟩
  · exact ⟨-m, e, by rw [abs_neg, abs_of_nonneg (by positivity)]; exact h3', h4, by simp⟩

/-- 1.5 -/
def threeHalves : F64 := F64.ofRat false (3 / 2)

theorem threeHalves_value : threeHalves.isFin = true ∧ threeHalves.value = 3 / 2 := by decide +kernel

theorem lt_exp {n e k : ℤ} {j : ℕ} (hn : |n| < 2 ^ j) (h : (2 : ℚ) ^ k ≤ |(n : ℚ) * 2 ^ e|) : k - j < e := by
  have hp := two_zpow_pos e
  rw [abs_mul, abs_of_pos hp] at h
  have h1 : |(n : ℚ)| < 2 ^ (j : ℤ) := by rw [zpow_natCast]; exact_mod_cast hn
  have h2 : (2 : ℚ) ^ k < 2 ^ (j + e : ℤ) := by
    rw [zpow_add₀ (by norm_num)]
    exact h.trans_lt (mul_lt_mul_of_pos_right h1 hp)
  have := (zpow_lt_zpow_iff_right₀ (by norm_num : (1 : ℚ) < 2)).1 h2
  omega

/-- The sum with 1.5, in units of `2^k`. -/
theorem sum_double {n e k : ℤ} (h1 : k ≤ e) (h2 : k ≤ -1) (h3 : -1074 ≤ k)
    (hb : |(n : ℚ) * 2 ^ e + 3 / 2| ≤ 2 ^ 53 * 2 ^ k) :
    ∃ z : F64, z.isFin = true ∧ z.value = (n : ℚ) * 2 ^ e + 3 / 2 := by
  have hp := two_zpow_pos k
  have key : (n : ℚ) * 2 ^ e + 3 / 2 = ((n * 2 ^ (e - k).toNat + 3 * 2 ^ (-1 - k).toNat : ℤ) : ℚ) * 2 ^ k := by
    have a : (2 : ℚ) ^ e = 2 ^ (e - k).toNat * 2 ^ k := by
      rw [← zpow_natCast, ← zpow_add₀ (by norm_num), Int.toNat_of_nonneg (by omega)]
      congr 1; ring
    have b : (3 / 2 : ℚ) = 3 * (2 ^ (-1 - k).toNat * 2 ^ k) := by
      rw [← zpow_natCast, ← zpow_add₀ (by norm_num), Int.toNat_of_nonneg (by omega)]
      have : (-1 - k + k : ℤ) = -1 := by ring
      rw [this]; norm_num
    rw [a, b]; push_cast; ring
  refine exists_double ?_ h3 (by omega) key
  rw [key, abs_mul, abs_of_pos hp] at hb
  have := le_of_mul_le_mul_right hb hp
  exact_mod_cast this

/-- `x + 1.5 - 1.5 == x` for floats of files from `2^-28` to `2^51`. -/
theorem add_sub_threeHalves {x : F64} (hx : rnd32 x = x) (hf : x.isFin = true)
    (hlo : (2 : ℚ) ^ (-28 : ℤ) ≤ |x.value|) (hhi : |x.value| ≤ 2 ^ 51) :
    NumEq (F64.sub (F64.add x threeHalves) threeHalves) x := by
  obtain ⟨n, e, hn, -, hv⟩ := binary32_form hx hf
  obtain ⟨t1, t2⟩ := threeHalves_value
  suffices ∃ z : F64, z.isFin = true ∧ z.value = x.value + threeHalves.value by
    obtain ⟨z, h1, h2⟩ := this
    exact add_sub_exact hf t1 h1 h2
  rw [t2]
  rw [hv] at hlo hhi ⊢
  have he := lt_exp hn hlo
  have htri : |(n : ℚ) * 2 ^ e + 3 / 2| ≤ |(n : ℚ) * 2 ^ e| + 3 / 2 := by
    refine (abs_add_le _ _).trans (le_of_eq ?_)
    norm_num
  by_cases h2 : |(n : ℚ) * 2 ^ e| < 2
  · refine sum_double (k := -51) (by omega) (by omega) (by omega) (htri.trans ?_)
    have h3 : (4 : ℚ) = 2 ^ 53 * 2 ^ (-51 : ℤ) := by norm_num
    rw [← h3]
    linarith
  · have he2 := lt_exp (e := e) (k := 1) hn (by rw [zpow_one]; exact not_lt.1 h2)
    by_cases h3 : -1 ≤ e
    · refine sum_double (k := -1) h3 (by omega) (by omega) (htri.trans ?_)
      have h4 : (2 : ℚ) ^ 52 = 2 ^ 53 * 2 ^ (-1 : ℤ) := by norm_num
      rw [← h4]
      norm_num at hhi ⊢
      linarith
    · refine sum_double (k := e) le_rfl (by omega) (by omega) (htri.trans ?_)
      have hp := two_zpow_pos e
      have h4 : (2 : ℚ) ^ (-22 : ℤ) ≤ 2 ^ e := zpow_le_zpow_right₀ (by norm_num) (by omega)
      have h5 : |(n : ℚ) * 2 ^ e| ≤ 2 ^ 24 * 2 ^ e := by
        rw [abs_mul, abs_of_pos hp]
        refine mul_le_mul_of_nonneg_right ?_ hp.le
        exact_mod_cast hn.le
      generalize |(n : ℚ) * 2 ^ e| = w at h5 ⊢
      norm_num at h4 h5 ⊢
      linarith

end Bf2
