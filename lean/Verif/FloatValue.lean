import Verif.FloatCodec

/-! # Values of binary32 words and doubles: exact reading, correctly rounded writing -/

namespace Bf2

theorem special32_iff (w : BitVec 32) : Special32 w ↔ inf32 ≤ w.toNat % 2 ^ 31 := by
  have hlt := w.isLt
  unfold Special32
  rw [← BitVec.toNat_inj, BitVec.extractLsb_toNat, Nat.shiftRight_eq_div_pow]
  simp only [inf32]
  norm_num
  omega

/-- Sign of a word. -/
def sgn32 (w : BitVec 32) : Bool := decide (2 ^ 31 ≤ w.toNat)

theorem val32_eq (w : BitVec 32) :
    val32 w = (if sgn32 w then -1 else 1) * decMag 23 (-149) (w.toNat % 2 ^ 31) := by
  have hlt := w.isLt
  have he : (w.extractLsb 30 23).toNat = w.toNat % 2 ^ 31 / 2 ^ 23 := by
    rw [BitVec.extractLsb_toNat, Nat.shiftRight_eq_div_pow]; norm_num; omega
  have hf : (w.extractLsb 22 0).toNat = w.toNat % 2 ^ 31 % 2 ^ 23 := by
    rw [BitVec.extractLsb_toNat, Nat.shiftRight_eq_div_pow]; norm_num
  have hm : w.msb = sgn32 w := by
    rw [BitVec.msb_eq_decide]; rfl
  unfold val32 decMag
  simp only [he, hf, hm]
  congr 1
  generalize w.toNat % 2 ^ 31 = n
  by_cases h : n / 2 ^ 23 = 0
  · rw [if_pos h, if_pos h, Nat.mod_eq_of_lt]
    exact Nat.lt_of_div_eq_zero (by norm_num) h
  · rw [if_neg h, if_neg h]
    congr 2
    ring

theorem value_eq (x : F64) : x.value = (if x.neg then -1 else 1) * decMag 52 (-1074) x.mag := by
  unfold F64.value decMag
  simp only
  congr 1
  by_cases h : x.mag / 2 ^ 52 = 0
  · rw [if_pos h, if_pos h, Nat.mod_eq_of_lt]
    exact Nat.lt_of_div_eq_zero (by norm_num) h
  · rw [if_neg h, if_neg h]
    congr 2
    ring

theorem toRat_eq (x : F64) : x.toRat = x.value := by
  rw [value_eq]; unfold F64.toRat; split <;> ring

theorem packF_sgn (x : F64) : sgn32 (packF x) = x.neg := by
  have := packMag_lt x.lt
  unfold sgn32
  rw [packF_toNat]
  cases x.neg
  · simp; omega
  · simp

theorem packF_mag (x : F64) : (packF x).toNat % 2 ^ 31 = packMag x.mag := by
  have := packMag_lt x.lt
  rw [packF_toNat]; split <;> omega

/-- Magnitudes whose nearest binary32 is too large. -/
theorem encMag_inf {r : ℚ} (h : 0 ≤ r) :
    inf32 ≤ encMag 23 (-149) r ↔ (2 ^ 128 - 2 ^ 103 : ℚ) ≤ r := by
  by_cases h1 : r < 2 ^ (127 : ℤ)
  · have := encMag_le 23 (-149) h 127 (by norm_num) h1
    constructor
    · intro h2; simp only [inf32] at h2; omega
    · intro h2
      exfalso
      norm_num at h1 h2
      linarith
  · rw [not_lt] at h1
    have hp : 0 < r := lt_of_lt_of_le (by positivity) h1
    have hlog : 127 ≤ Int.log 2 r := by
      have := (Int.zpow_le_iff_le_log (b := 2) (x := 127) (by norm_num) hp).1 (by exact_mod_cast h1)
      exact this
    have hu : ulpExp 23 (-149) r = Int.log 2 r - 23 := by
      unfold ulpExp; rw [if_neg hp.ne', max_eq_right]
      · rfl
      · have : ((23 : ℕ) : ℤ) = 23 := rfl
        omega
    by_cases h2 : r < 2 ^ (128 : ℤ)
    · have hlog' : Int.log 2 r = 127 := by
        have := (Int.lt_zpow_iff_log_lt (b := 2) (x := 128) (by norm_num) hp).1 (by exact_mod_cast h2)
        omega
      rw [hlog'] at hu
      unfold encMag
      rw [hu]
      have e1 : ((127 : ℤ) - 23 - -149) * 2 ^ 23 = 253 * 2 ^ 23 := by norm_num
      rw [e1]
      have e2 : ((2 : ℚ) ^ ((127 : ℤ) - 23)) = 2 ^ 104 := by norm_num
      rw [e2]
      by_cases h3 : (2 ^ 128 - 2 ^ 103 : ℚ) ≤ r
      · have hq : ((2 ^ 24 - 1 : ℤ) : ℚ) + 1 / 2 ≤ r / 2 ^ 104 := by
          rw [le_div_iff₀ (by positivity)]
          push_cast
          norm_num at h3 ⊢
          linarith
        have hq' : r / 2 ^ 104 < 2 ^ 24 := by
          rw [div_lt_iff₀ (by positivity)]
          norm_num at h2 ⊢
          linarith
        have hf : ⌊r / 2 ^ 104⌋ = 2 ^ 24 - 1 := by
          rw [Int.floor_eq_iff]
          push_cast at hq ⊢
          constructor <;> linarith
        have : rne (r / 2 ^ 104) = 2 ^ 24 := by
          unfold rne
          simp only [hf]
          push_cast at hq ⊢
          have a1 : ¬ (r / 2 ^ 104 - 16777215 < 1 / 2) := by linarith
          rw [if_neg a1]
          split <;> rfl
        rw [this]
        simp only [inf32]
        constructor
        · intro _; exact h3
        · intro _; norm_num
      · have hq : rne (r / 2 ^ 104) ≤ 2 ^ 24 - 1 := by
          rw [not_le] at h3
          have h4 : r / 2 ^ 104 < 2 ^ 24 - 1 / 2 := by
            rw [div_lt_iff₀ (by positivity)]
            norm_num at h3 ⊢
            linarith
          by_contra hc
          have hc' : (2 : ℤ) ^ 24 ≤ rne (r / 2 ^ 104) := by omega
          have hc'' : ((2 : ℚ)) ^ 24 ≤ rne (r / 2 ^ 104) := by exact_mod_cast hc'
          have := rne_near (r / 2 ^ 104)
          rw [abs_le] at this
          linarith [this.1]
        constructor
        · intro h5
          simp only [inf32] at h5
          omega
        · intro h5; exact absurd h5 h3
    · rw [not_lt] at h2
      have hlog' : 128 ≤ Int.log 2 r :=
        (Int.zpow_le_iff_le_log (b := 2) (x := 128) (by norm_num) hp).1 (by exact_mod_cast h2)
      have hm := (mant_bounds 23 (-149) h).2.2.2 (by rw [hu]; omega)
      constructor
      · intro _
        norm_num at h2 ⊢
        linarith
      · intro _
        unfold encMag
        rw [hu] at *
        have : (105 + 149) * 2 ^ 23 ≤ (Int.log 2 r - 23 - -149) * 2 ^ 23 := by
          apply mul_le_mul_of_nonneg_right _ (by norm_num); omega
        simp only [inf32]
        omega

theorem packMag_fin {x : F64} (h : ¬ Special32 (packF x)) :
    x.mag < inf64 ∧ packMag x.mag = encMag 23 (-149) (decMag 52 (-1074) x.mag) ∧
      packMag x.mag < inf32 := by
  rw [special32_iff, packF_mag, not_le] at h
  have h' := h
  unfold packMag at h ⊢
  by_cases h1 : x.mag < inf64
  · rw [if_pos h1] at h ⊢
    refine ⟨h1, ?_, h⟩
    omega
  · rw [if_neg h1] at h
    by_cases h2 : x.mag = inf64
    · rw [if_pos h2] at h; omega
    · rw [if_neg h2] at h
      unfold quiet32 at h
      split at h <;> omega

theorem decMag_format (b : ℕ) : ∃ (m : ℕ) (e : ℤ), m ≤ 2 ^ (23 + 1) ∧ -149 ≤ e ∧
    decMag 23 (-149) b = m * 2 ^ e := by
  obtain ⟨m, e, h1, h2, h3, _⟩ := decMag_form 23 (-149) b
  exact ⟨m, e, h1.le, h2, h3⟩

theorem pack_nearest {x : F64} (h : ¬ Special32 (packF x)) (w : BitVec 32) :
    |x.value - val32 (packF x)| ≤ |x.value - val32 w| := by
  obtain ⟨_, h2, _⟩ := packMag_fin h
  rw [val32_eq, packF_sgn, packF_mag, h2, value_eq, val32_eq w]
  have hr := decMag_nonneg 52 (-1074) x.mag
  generalize decMag 52 (-1074) x.mag = r at *
  rw [dec_enc 23 (-149) hr]
  obtain ⟨m, e, hm, he, hv⟩ := decMag_format (w.toNat % 2 ^ 31)
  have near := rndMag_nearest 23 (-149) hr m e hm he
  have near0 := rndMag_nearest 23 (-149) hr 0 0 (by norm_num) (by norm_num)
  have hw := decMag_nonneg 23 (-149) (w.toNat % 2 ^ 31)
  rw [← hv] at near
  simp only [Nat.cast_zero, zero_mul, sub_zero, abs_of_nonneg hr] at near0
  generalize decMag 23 (-149) (w.toNat % 2 ^ 31) = q at *
  generalize rndMag 23 (-149) r = t at *
  cases x.neg <;> cases sgn32 w <;> simp only [Bool.false_eq_true, if_false, if_true, one_mul,
    neg_one_mul]
  · exact near
  · rw [sub_neg_eq_add, abs_of_nonneg (show 0 ≤ r + q by linarith)]
    linarith
  · rw [show -r - -t = -(r - t) by ring, abs_neg, show -r - q = -(r + q) by ring, abs_neg,
      abs_of_nonneg (show 0 ≤ r + q by linarith)]
    linarith
  · rw [show -r - -t = -(r - t) by ring, abs_neg, show -r - -q = -(r - q) by ring, abs_neg]
    exact near

theorem pack_tie {x : F64} (h : ¬ Special32 (packF x)) (w : BitVec 32)
    (hne : val32 w ≠ val32 (packF x)) (ht : |x.value - val32 w| ≤ |x.value - val32 (packF x)|) :
    (packF x).toNat % 2 = 0 := by
  obtain ⟨_, h2, h3⟩ := packMag_fin h
  have hpar : (packF x).toNat % 2 = packMag x.mag % 2 := by rw [← packF_mag]; omega
  rw [hpar, h2]
  rw [val32_eq, val32_eq, packF_sgn, packF_mag, h2] at hne
  rw [val32_eq, val32_eq, packF_sgn, packF_mag, h2, value_eq] at ht
  have hr := decMag_nonneg 52 (-1074) x.mag
  generalize decMag 52 (-1074) x.mag = r at *
  rw [dec_enc 23 (-149) hr] at ht hne
  obtain ⟨m, e, hm, he, hv⟩ := decMag_format (w.toNat % 2 ^ 31)
  have key := encMag_tie 23 (by norm_num) (-149) hr m e hm he
  have key0 := encMag_tie 23 (by norm_num) (-149) hr 0 0 (by norm_num) (by norm_num)
  have near0 := rndMag_nearest 23 (-149) hr 0 0 (by norm_num) (by norm_num)
  have hw := decMag_nonneg 23 (-149) (w.toNat % 2 ^ 31)
  rw [← hv] at key
  simp only [Nat.cast_zero, zero_mul, sub_zero, abs_of_nonneg hr] at near0 key0
  generalize decMag 23 (-149) (w.toNat % 2 ^ 31) = q at *
  generalize rndMag 23 (-149) r = t at *
  cases hx : x.neg <;> cases hs : sgn32 w <;>
    simp only [hx, hs, Bool.false_eq_true, if_false, if_true, one_mul, neg_one_mul] at hne ht
  · exact key hne ht
  · rw [sub_neg_eq_add, abs_of_nonneg (show 0 ≤ r + q by linarith)] at ht
    have : q = 0 := by linarith
    subst this
    exact key0 (by simpa using hne) (by linarith)
  · rw [show -r - -t = -(r - t) by ring, abs_neg, show -r - q = -(r + q) by ring, abs_neg,
      abs_of_nonneg (show 0 ≤ r + q by linarith)] at ht
    have : q = 0 := by linarith
    subst this
    exact key0 (fun h => hne (by rw [← h]; simp)) (by linarith)
  · rw [show -r - -t = -(r - t) by ring, abs_neg, show -r - -q = -(r - q) by ring, abs_neg] at ht
    exact key (fun h => hne (by rw [h])) ht

end Bf2
