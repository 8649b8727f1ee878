import Verif.BoundsLemmas
import Verif.FloatValue

/-! # Rounding to binary32 keeps the order -/

namespace Bf2

theorem rne_mono {q r : ℚ} (h : q ≤ r) : rne q ≤ rne r := by
  by_contra hn
  have h1 := rne_nearest q (rne r)
  have h2 := rne_nearest r (rne q)
  have hlt : (rne r : ℚ) < rne q := by exact_mod_cast not_le.1 hn
  have hqr : q = r := by
    refine le_antisymm h ?_
    rcases abs_cases (q - rne q) with ⟨a1, a2⟩ | ⟨a1, a2⟩ <;>
    rcases abs_cases (q - rne r) with ⟨b1, b2⟩ | ⟨b1, b2⟩ <;>
    rcases abs_cases (r - rne r) with ⟨c1, c2⟩ | ⟨c1, c2⟩ <;>
    rcases abs_cases (r - rne q) with ⟨d1, d2⟩ | ⟨d1, d2⟩ <;>
    linarith
  rw [hqr] at hn
  exact hn le_rfl

theorem ulpExp_mono (p : ℕ) (emin : ℤ) {r s : ℚ} (h0 : 0 ≤ r) (h : r ≤ s) :
    ulpExp p emin r ≤ ulpExp p emin s := by
  unfold ulpExp
  split
  · split <;> simp
  · next hr =>
    have hp : 0 < r := lt_of_le_of_ne h0 (Ne.symm hr)
    rw [if_neg (hp.trans_le h).ne']
    have := Int.log_mono_right (b := 2) hp h
    omega

theorem encMag_mono (p : ℕ) (emin : ℤ) {r s : ℚ} (h0 : 0 ≤ r) (h : r ≤ s) :
    encMag p emin r ≤ encMag p emin s := by
  obtain ⟨a1, a2, a3, -⟩ := mant_bounds p emin h0
  obtain ⟨b1, b2, b3, b4⟩ := mant_bounds p emin (h0.trans h)
  have he := ulpExp_mono p emin h0 h
  unfold encMag
  apply Int.toNat_le_toNat
  rcases he.eq_or_lt with he | he
  · rw [← he]
    have := rne_mono (div_le_div_of_nonneg_right h (two_zpow_pos (ulpExp p emin r)).le)
    omega
  · have b5 := b4 (by omega)
    have hP : (0 : ℤ) < 2 ^ p := by positivity
    rw [pow_succ] at a2
    generalize rne (r / 2 ^ ulpExp p emin r) = M at *
    generalize rne (s / 2 ^ ulpExp p emin s) = N at *
    have : (ulpExp p emin r + 1 - emin) * 2 ^ p ≤ (ulpExp p emin s - emin) * 2 ^ p :=
      mul_le_mul_of_nonneg_right (by omega) hP.le
    linarith

theorem decMag_mono (p : ℕ) (emin : ℤ) {b c : ℕ} (h : b ≤ c) : decMag p emin b ≤ decMag p emin c := by
  by_contra hn
  have := encMag_mono p emin (decMag_nonneg p emin c) (not_le.1 hn).le
  rw [enc_dec, enc_dec] at this
  rw [le_antisymm h this] at hn
  exact hn le_rfl

theorem packMag_mono {b c : ℕ} (h : b ≤ c) (hc : c ≤ inf64) : packMag b ≤ packMag c := by
  unfold packMag
  by_cases hc1 : c < inf64
  · rw [if_pos hc1, if_pos (h.trans_lt hc1)]
    exact min_le_min_left _ (encMag_mono 23 (-149) (decMag_nonneg ..) (decMag_mono 52 (-1074) h))
  · rw [if_neg hc1, if_pos (by omega : c = inf64)]
    split
    · exact min_le_left _ _
    · rw [if_pos (by omega)]

theorem packMag_le {b : ℕ} (h : b ≤ inf64) : packMag b ≤ inf32 := by
  refine (packMag_mono h le_rfl).trans ?_
  unfold packMag
  rw [if_neg (by simp), if_pos rfl]

theorem unpackMag_mono {b c : ℕ} (h : b ≤ c) (hc : c ≤ inf32) : unpackMag b ≤ unpackMag c := by
  unfold unpackMag
  by_cases hc1 : c < inf32
  · rw [if_pos hc1, if_pos (h.trans_lt hc1)]
    exact encMag_mono 52 (-1074) (decMag_nonneg ..) (decMag_mono 23 (-149) h)
  · rw [if_neg hc1, if_pos (by omega : c = inf32)]
    split
    · next hb => exact (unpack_fin hb).1.le
    · rw [if_pos (by omega)]

/-- Rounding to binary32 as saving and loading does. -/
abbrev rnd32 (x : F64) : F64 := unpackF (packF x)

theorem rnd32_mag (x : F64) : (rnd32 x).mag = unpackMag (packMag x.mag) := by
  rw [unpackF_mag, packF_mag]

theorem rnd32_neg (x : F64) : (rnd32 x).neg = x.neg := by
  rw [unpackF_neg, ← packF_sgn]
  rfl

theorem rnd32_isNaN (x : F64) : (rnd32 x).isNaN = x.isNaN := by
  have hx := x.2
  unfold F64.isNaN
  rw [rnd32_mag, decide_eq_decide]
  constructor
  · intro h
    by_contra hn
    have h1 := packMag_le (not_lt.1 hn)
    have h2 := unpackMag_mono h1 le_rfl
    have h3 : unpackMag inf32 = inf64 := by unfold unpackMag; rw [if_neg (by simp), if_pos rfl]
    omega
  · intro h
    unfold packMag
    rw [if_neg (by omega), if_neg (by omega)]
    unfold unpackMag quiet32
    simp only [inf32, inf64] at *
    repeat' split
    all_goals omega

theorem rnd32_lt {x y : F64} (h : F64.lt' (rnd32 x) (rnd32 y) = true) : F64.lt' x y = true := by
  unfold F64.lt' at h ⊢
  rw [rnd32_isNaN, rnd32_isNaN] at h
  simp only [Bool.and_eq_true, Bool.not_eq_true', decide_eq_true_eq] at h ⊢
  obtain ⟨⟨hx, hy⟩, h⟩ := h
  refine ⟨⟨hx, hy⟩, ?_⟩
  by_contra hn
  simp only [F64.isNaN, decide_eq_false_iff_not, not_lt] at hx hy
  have key : ∀ {b c : ℕ}, b ≤ c → c ≤ inf64 → unpackMag (packMag b) ≤ unpackMag (packMag c) :=
    fun h1 h2 => unpackMag_mono (packMag_mono h1 h2) (packMag_le h2)
  unfold F64.key at h hn
  rw [rnd32_neg, rnd32_neg, rnd32_mag, rnd32_mag] at h
  cases hxn : x.neg <;> cases hyn : y.neg <;>
    simp only [hxn, hyn, Bool.false_eq_true, if_true, if_false] at h hn
  · have := key (b := y.mag) (c := x.mag) (by omega) hx
    omega
  · omega
  · have h1 : x.mag = 0 := by omega
    have h2 : y.mag = 0 := by omega
    have h3 : unpackMag (packMag 0) = 0 := by
      have e1 : packMag 0 = 0 := by
        unfold packMag
        rw [if_pos (by norm_num), show decMag 52 (-1074) 0 = decMag 23 (-149) 0 by norm_num [decMag], enc_dec]
        simp
      rw [e1]
      unfold unpackMag
      rw [if_pos (by norm_num), show decMag 23 (-149) 0 = decMag 52 (-1074) 0 by norm_num [decMag], enc_dec]
    rw [h1, h2, h3] at h
    omega
  · have := key (b := x.mag) (c := y.mag) (by omega) hy
    omega

end Bf2
