import Verif.Float64
import Mathlib.Tactic.Linarith
import Mathlib.Tactic.Positivity
import Mathlib.Tactic.FieldSimp
import Mathlib.Tactic.Ring
import Mathlib.Tactic.LinearCombination
import Mathlib.Algebra.Order.Field.Power

/-! # Lemmas about rounding and the binary32/binary64 conversions -/

namespace Bf2

theorem rne_int (n : ℤ) : rne (n : ℚ) = n := by
  simp [rne]

theorem rne_le {q : ℚ} {n : ℤ} (h : q ≤ n) : rne q ≤ n := by
  have h1 : ⌊q⌋ ≤ n := by exact_mod_cast (Int.floor_le q).trans h
  have h3 := Int.floor_le q
  unfold rne
  simp only
  rcases h1.lt_or_eq with h1 | h1
  · split_ifs <;> omega
  · have : q - (⌊q⌋ : ℚ) < 1 / 2 := by rw [h1]; linarith
    rw [if_pos this]; omega

theorem le_rne {q : ℚ} {n : ℤ} (h : (n : ℚ) ≤ q) : n ≤ rne q := by
  have h1 : n ≤ ⌊q⌋ := Int.le_floor.2 h
  unfold rne
  simp only
  split_ifs <;> omega

theorem rne_near (q : ℚ) : |q - rne q| ≤ 1 / 2 := by
  have h1 := Int.floor_le q
  have h2 := Int.lt_floor_add_one q
  unfold rne
  simp only
  rw [abs_le]
  split_ifs <;> push_cast <;> constructor <;> linarith

theorem two_zpow_pos (e : ℤ) : (0 : ℚ) < 2 ^ e := by positivity

theorem log_spec {r : ℚ} (h : 0 < r) :
    (2 : ℚ) ^ Int.log 2 r ≤ r ∧ r < (2 : ℚ) ^ (Int.log 2 r + 1) := by
  constructor
  · exact_mod_cast Int.zpow_log_le_self (b := 2) (by norm_num) h
  · exact_mod_cast Int.lt_zpow_succ_log_self (b := 2) (by norm_num) r

/-- The rounded mantissa is at most `2^(p+1)`; it is at least `2^p` above the subnormal range. -/
theorem mant_bounds (p : ℕ) (emin : ℤ) {r : ℚ} (h : 0 ≤ r) :
    0 ≤ rne (r / 2 ^ ulpExp p emin r) ∧ rne (r / 2 ^ ulpExp p emin r) ≤ 2 ^ (p + 1) ∧
    emin ≤ ulpExp p emin r ∧
    (emin < ulpExp p emin r → (2 : ℤ) ^ p ≤ rne (r / 2 ^ ulpExp p emin r)) := by
  have he : emin ≤ ulpExp p emin r := by
    unfold ulpExp; split <;> simp
  refine ⟨le_rne (by simpa using div_nonneg h (two_zpow_pos _).le), rne_le ?_, he, ?_⟩
  · rw [div_le_iff₀ (two_zpow_pos _)]
    rcases h.eq_or_lt with rfl | h0
    · positivity
    · obtain ⟨_, h2⟩ := log_spec h0
      push_cast
      rw [← zpow_natCast, ← zpow_add₀ (by norm_num)]
      refine h2.le.trans (zpow_le_zpow_right₀ (by norm_num) ?_)
      unfold ulpExp
      rw [if_neg h0.ne']
      push_cast; omega
  · intro hlt
    unfold ulpExp at hlt
    split at hlt
    · omega
    · next hr =>
      have h0 : 0 < r := lt_of_le_of_ne h (Ne.symm hr)
      have hu : ulpExp p emin r = Int.log 2 r - p := by
        unfold ulpExp; rw [if_neg hr]; omega
      apply le_rne
      rw [hu, le_div_iff₀ (two_zpow_pos _)]
      push_cast
      rw [← zpow_natCast, ← zpow_add₀ (by norm_num)]
      obtain ⟨h1, _⟩ := log_spec h0
      refine le_trans (le_of_eq ?_) h1
      congr 1; omega

/-- Decoding the encoding is rounding. -/
theorem dec_enc (p : ℕ) (emin : ℤ) {r : ℚ} (h : 0 ≤ r) :
    decMag p emin (encMag p emin r) = rndMag p emin r := by
  obtain ⟨hM0, hM1, he, hM2⟩ := mant_bounds p emin h
  unfold encMag rndMag
  generalize rne (r / 2 ^ ulpExp p emin r) = M at *
  generalize ulpExp p emin r = e at *
  obtain ⟨k, rfl⟩ := Int.eq_ofNat_of_zero_le hM0
  obtain ⟨d, hd⟩ := Int.eq_ofNat_of_zero_le (show 0 ≤ e - emin by omega)
  obtain rfl : e = emin + d := by omega
  have hb : ((emin + (d : ℤ) - emin) * 2 ^ p + (k : ℤ)).toNat = d * 2 ^ p + k := by
    have : (emin + (d : ℤ) - emin) = d := by ring
    rw [this]
    have : ((d : ℤ) * 2 ^ p + (k : ℤ)) = ((d * 2 ^ p + k : ℕ) : ℤ) := by push_cast; ring
    rw [this, Int.toNat_natCast]
  rw [hb]
  have hk1 : k ≤ 2 ^ (p + 1) := by exact_mod_cast hM1
  have hP : 0 < 2 ^ p := by positivity
  rw [pow_succ] at hk1
  have hq : (d * 2 ^ p + k) / 2 ^ p = d + k / 2 ^ p := by
    rw [Nat.add_comm, Nat.add_mul_div_right _ _ hP, Nat.add_comm]
  have hm : (d * 2 ^ p + k) % 2 ^ p = k % 2 ^ p := by
    rw [Nat.add_comm, Nat.add_mul_mod_self_right]
  unfold decMag
  rw [hq, hm]
  rcases Nat.lt_or_ge k (2 ^ p) with hk | hk
  · have hd0 : d = 0 := by
      by_contra hne
      have : (2 : ℤ) ^ p ≤ k := hM2 (by omega)
      have : 2 ^ p ≤ k := by exact_mod_cast this
      omega
    subst hd0
    simp [Nat.div_eq_of_lt hk]
  · rcases hk1.lt_or_eq with hlt | heq
    · have hq1 : k / 2 ^ p = 1 := by
        rw [Nat.div_eq_of_lt_le] <;> omega
      have hm1 : k % 2 ^ p = k - 2 ^ p := by
        rw [Nat.mod_eq_sub_mod hk, Nat.mod_eq_of_lt (by omega)]
      rw [hq1, if_neg (by omega), hm1]
      push_cast [hk]
      rw [show emin + ((d : ℤ) + 1) - 1 = emin + d by ring]
      ring
    · have hq1 : k / 2 ^ p = 2 := by
        rw [heq, Nat.mul_comm, Nat.mul_div_cancel _ hP]
      have hm1 : k % 2 ^ p = 0 := by rw [heq]; simp
      rw [hq1, if_neg (by omega), hm1, heq]
      rw [show emin + ((d + 2 : ℕ) : ℤ) - 1 = (emin + d) + 1 by push_cast; ring,
        zpow_add₀ (by norm_num : (2 : ℚ) ≠ 0)]
      push_cast
      ring

theorem decMag_nonneg (p : ℕ) (emin : ℤ) (b : ℕ) : 0 ≤ decMag p emin b := by
  unfold decMag; split <;> positivity

/-- Values with at most `p+1` significant bits are not rounded. -/
theorem rndMag_exact (p : ℕ) (emin : ℤ) {r : ℚ} (h : 0 ≤ r) (m : ℕ) (e : ℤ) (hm : m ≤ 2 ^ (p + 1))
    (he : emin ≤ e) (hr : r = m * 2 ^ e) : rndMag p emin r = r := by
  by_cases h0 : r = 0
  · subst h0
    have := rne_int 0
    simp only [Int.cast_zero] at this
    simp [rndMag, this]
  · have hpos : 0 < r := lt_of_le_of_ne h (Ne.symm h0)
    -- the exponent chosen is at most `e`, or one above with an even mantissa
    suffices hex : ∃ n : ℤ, r / 2 ^ ulpExp p emin r = n by
      obtain ⟨n, hn⟩ := hex
      rw [rndMag, hn, rne_int, ← hn, div_mul_cancel₀ _ (two_zpow_pos _).ne']
    obtain ⟨h1, _⟩ := log_spec hpos
    have hlog : Int.log 2 r ≤ e + p + 1 := by
      have : (2 : ℚ) ^ Int.log 2 r ≤ 2 ^ (e + p + 1) := by
        refine h1.trans ?_
        rw [hr, show e + (p : ℤ) + 1 = ((p + 1 : ℕ) : ℤ) + e by push_cast; ring,
          zpow_add₀ (by norm_num), zpow_natCast]
        have : (m : ℚ) ≤ 2 ^ (p + 1) := by exact_mod_cast hm
        exact mul_le_mul_of_nonneg_right this (two_zpow_pos e).le
      exact (zpow_le_zpow_iff_right₀ (by norm_num)).1 this
    by_cases hle : ulpExp p emin r ≤ e
    · obtain ⟨d, hd⟩ := Int.eq_ofNat_of_zero_le (show 0 ≤ e - ulpExp p emin r by omega)
      refine ⟨m * 2 ^ d, ?_⟩
      rw [div_eq_iff (two_zpow_pos _).ne', hr]
      push_cast
      rw [mul_assoc, ← zpow_natCast, ← zpow_add₀ (by norm_num)]
      congr 2; rw [← hr]; omega
    · -- then `m = 2^(p+1)`
      have hu : ulpExp p emin r = e + 1 := by
        unfold ulpExp at hle ⊢
        rw [if_neg h0] at hle ⊢
        omega
      have hlog' : Int.log 2 r = e + p + 1 := by
        unfold ulpExp at hu
        rw [if_neg h0] at hu
        omega
      have hmge : 2 ^ (p + 1) ≤ m := by
        rw [hlog', hr, show e + (p : ℤ) + 1 = ((p + 1 : ℕ) : ℤ) + e by push_cast; ring,
          zpow_add₀ (by norm_num), zpow_natCast] at h1
        have := le_of_mul_le_mul_right h1 (two_zpow_pos e)
        exact_mod_cast this
      obtain rfl : m = 2 ^ (p + 1) := le_antisymm hm hmge
      refine ⟨2 ^ p, ?_⟩
      rw [div_eq_iff (two_zpow_pos _).ne', hu, hr, zpow_add₀ (by norm_num)]
      push_cast
      ring

/-- A finite magnitude as mantissa times power of two. -/
theorem decMag_form (p : ℕ) (emin : ℤ) (b : ℕ) :
    ∃ (m : ℕ) (e : ℤ), m < 2 ^ (p + 1) ∧ emin ≤ e ∧ decMag p emin b = m * 2 ^ e ∧
      (b / 2 ^ p ≠ 0 → e = emin + (b / 2 ^ p : ℕ) - 1) ∧ (b / 2 ^ p = 0 → e = emin) := by
  have hP : 0 < 2 ^ p := by positivity
  by_cases h : b / 2 ^ p = 0
  · refine ⟨b, emin, ?_, le_rfl, by simp [decMag, h], by simp [h], by simp⟩
    have := (Nat.div_eq_zero_iff_lt hP).1 h
    rw [pow_succ]; omega
  · have h1 : (1 : ℤ) ≤ (b / 2 ^ p : ℕ) := by exact_mod_cast Nat.one_le_iff_ne_zero.2 h
    refine ⟨2 ^ p + b % 2 ^ p, emin + (b / 2 ^ p : ℕ) - 1, ?_, by linarith, by simp [decMag, h],
      by simp, by simp [h]⟩
    have := Nat.mod_lt b hP
    rw [pow_succ]; omega

theorem rndMag_decMag (p : ℕ) (emin : ℤ) (b : ℕ) :
    rndMag p emin (decMag p emin b) = decMag p emin b := by
  obtain ⟨m, e, hm, he, hr, _⟩ := decMag_form p emin b
  exact rndMag_exact p emin (decMag_nonneg _ _ _) m e hm.le he hr

/-- Encoding is determined by the value: encoding a decoded magnitude gives the magnitude back. -/
theorem enc_dec (p : ℕ) (emin : ℤ) (b : ℕ) : encMag p emin (decMag p emin b) = b := by
  have hP : 0 < 2 ^ p := by positivity
  have hdm := Nat.div_add_mod b (2 ^ p)
  have hml := Nat.mod_lt b hP
  by_cases h : b / 2 ^ p = 0
  · have hd : decMag p emin b = b * 2 ^ emin := by simp [decMag, h]
    have hlt := (Nat.div_eq_zero_iff_lt hP).1 h
    have hu : ulpExp p emin (decMag p emin b) = emin := by
      unfold ulpExp
      split
      · rfl
      · next h0 =>
        have hpos := lt_of_le_of_ne (decMag_nonneg p emin b) (Ne.symm h0)
        obtain ⟨h1, _⟩ := log_spec hpos
        have : (2 : ℚ) ^ Int.log 2 (decMag p emin b) < 2 ^ (emin + p) := by
          refine h1.trans_lt ?_
          rw [hd, add_comm, zpow_add₀ (by norm_num), zpow_natCast]
          have : (b : ℚ) < 2 ^ p := by exact_mod_cast hlt
          exact mul_lt_mul_of_pos_right this (two_zpow_pos _)
        have := (zpow_lt_zpow_iff_right₀ (by norm_num)).1 this
        omega
    unfold encMag
    rw [hu, hd, mul_div_assoc, div_self (two_zpow_pos _).ne', mul_one]
    have := rne_int b
    push_cast at this
    rw [this]; simp
  · have hd : decMag p emin b = (2 ^ p + (b % 2 ^ p : ℕ)) * 2 ^ (emin + (b / 2 ^ p : ℕ) - 1) := by
      simp [decMag, h]
    generalize b / 2 ^ p = q at *
    generalize b % 2 ^ p = c at *
    have hpos : 0 < decMag p emin b := by rw [hd]; positivity
    have hlt : (c : ℚ) < 2 ^ p := by exact_mod_cast hml
    have hlog : Int.log 2 (decMag p emin b) = emin + q - 1 + p := by
      obtain ⟨h1, h2⟩ := log_spec hpos
      have a : (2 : ℚ) ^ Int.log 2 (decMag p emin b) < 2 ^ (emin + q - 1 + p + 1) := by
        refine h1.trans_lt ?_
        rw [hd, show emin + (q : ℤ) - 1 + p + 1 = ((p + 1 : ℕ) : ℤ) + (emin + q - 1) by
          push_cast; ring, zpow_add₀ (by norm_num), zpow_natCast, pow_succ]
        exact mul_lt_mul_of_pos_right (by linarith) (two_zpow_pos _)
      have b' : (2 : ℚ) ^ (emin + q - 1 + p) < 2 ^ (Int.log 2 (decMag p emin b) + 1) := by
        refine lt_of_le_of_lt ?_ h2
        rw [hd, show emin + (q : ℤ) - 1 + p = ((p : ℕ) : ℤ) + (emin + q - 1) by ring,
          zpow_add₀ (by norm_num), zpow_natCast]
        refine mul_le_mul_of_nonneg_right ?_ (two_zpow_pos _).le
        have : (0 : ℚ) ≤ c := by positivity
        linarith
      have a := (zpow_lt_zpow_iff_right₀ (by norm_num)).1 a
      have b' := (zpow_lt_zpow_iff_right₀ (by norm_num)).1 b'
      omega
    have hu : ulpExp p emin (decMag p emin b) = emin + q - 1 := by
      unfold ulpExp
      rw [if_neg hpos.ne', hlog, add_sub_cancel_right, max_eq_right (by omega)]
    unfold encMag
    rw [hu, hd, mul_div_assoc, div_self (two_zpow_pos _).ne', mul_one]
    have := rne_int (2 ^ p + (c : ℤ))
    push_cast at this ⊢
    rw [this]
    have h1 : (emin + (q : ℤ) - 1 - emin) * 2 ^ p + (2 ^ p + (c : ℤ)) = b := by
      have : (2 ^ p * (q : ℤ) + (c : ℤ)) = b := by exact_mod_cast hdm
      linear_combination this
    rw [h1]; simp

/-! ## Bounds on the encodings -/

/-- Upper bound of an encoding from an upper bound of the value. -/
theorem encMag_le (p : ℕ) (emin : ℤ) {r : ℚ} (h : 0 ≤ r) (k : ℤ) (hk : emin + p ≤ k)
    (hr : r < 2 ^ k) : (encMag p emin r : ℤ) ≤ (k - p - emin + 1) * 2 ^ p := by
  obtain ⟨hM0, hM1, he, _⟩ := mant_bounds p emin h
  have hu : ulpExp p emin r ≤ k - 1 - p ∨ ulpExp p emin r = emin := by
    unfold ulpExp
    split
    · right; rfl
    · next h0 =>
      have hpos := lt_of_le_of_ne h (Ne.symm h0)
      obtain ⟨h1, _⟩ := log_spec hpos
      have := (zpow_lt_zpow_iff_right₀ (by norm_num)).1 (h1.trans_lt hr)
      omega
  unfold encMag
  have hP : (0 : ℤ) < 2 ^ p := by positivity
  rw [Int.toNat_of_nonneg (by
    have := mul_nonneg (show 0 ≤ ulpExp p emin r - emin by omega) hP.le
    omega)]
  rcases hu with hu | hu
  · have h1 : (ulpExp p emin r - emin) * 2 ^ p ≤ (k - 1 - p - emin) * 2 ^ p :=
      mul_le_mul_of_nonneg_right (by omega) hP.le
    rw [pow_succ] at hM1
    nlinarith
  · have hle : rne (r / 2 ^ ulpExp p emin r) ≤ 2 ^ (k - emin).toNat := by
      apply rne_le
      rw [hu, div_le_iff₀ (two_zpow_pos _)]
      push_cast
      rw [← zpow_natCast, ← zpow_add₀ (by norm_num), Int.toNat_of_nonneg (by omega)]
      simpa using hr.le
    rw [hu] at hle hM1 ⊢
    rcases (show k = emin + p ∨ emin + p + 1 ≤ k by omega) with rfl | hk'
    · have : (emin + (p : ℤ) - emin).toNat = p := by omega
      rw [this] at hle
      have : (emin + (p : ℤ) - p - emin + 1) = 1 := by ring
      rw [this]; omega
    · have : (2 : ℤ) * 2 ^ p ≤ (k - p - emin + 1) * 2 ^ p :=
        mul_le_mul_of_nonneg_right (by omega) hP.le
      rw [pow_succ] at hM1
      omega

theorem decMag_lt (p : ℕ) (emin : ℤ) (b q : ℕ) (hq : b / 2 ^ p ≤ q) (hq1 : 1 ≤ q) :
    decMag p emin b < 2 ^ (emin + q + p) := by
  obtain ⟨m, e, hm, he, hr, h1, h2⟩ := decMag_form p emin b
  have he' : e ≤ emin + q - 1 := by
    by_cases h : b / 2 ^ p = 0
    · have := h2 h; omega
    · have := h1 h; omega
  rw [hr]
  calc (m : ℚ) * 2 ^ e < 2 ^ (p + 1) * 2 ^ e :=
        mul_lt_mul_of_pos_right (by exact_mod_cast hm) (two_zpow_pos e)
    _ = 2 ^ (((p + 1 : ℕ) : ℤ) + e) := by rw [zpow_add₀ (by norm_num), zpow_natCast]
    _ ≤ 2 ^ (emin + q + p) := zpow_le_zpow_right₀ (by norm_num) (by push_cast; omega)

/-! ## Rounding is to nearest -/

theorem rne_nearest (q : ℚ) (n : ℤ) : |q - rne q| ≤ |q - n| := by
  have h := rne_near q
  by_cases hn : rne q = n
  · rw [hn]
  · have h1 : (1 : ℚ) ≤ |(rne q : ℚ) - n| := by
      have : (1 : ℤ) ≤ |rne q - n| := Int.one_le_abs (sub_ne_zero.2 hn)
      exact_mod_cast this
    have h2 : |(rne q : ℚ) - n| ≤ |q - rne q| + |q - n| := by
      have := abs_sub_abs_le_abs_sub ((rne q : ℚ) - q) (n - q)
      have e1 : |(rne q : ℚ) - q| = |q - rne q| := abs_sub_comm _ _
      have e2 : |(n : ℚ) - q| = |q - n| := abs_sub_comm _ _
      have e3 := abs_add_le ((rne q : ℚ) - q) (q - n)
      rw [sub_add_sub_cancel, e1] at e3
      exact e3
    linarith

/-- A value of the format is a multiple of the rounding unit of `r`, or lies strictly below the
power of two below `r`. -/
theorem format_cases (p : ℕ) (emin : ℤ) {r : ℚ} (h : 0 ≤ r) (m : ℕ) (e : ℤ) (hm : m ≤ 2 ^ (p + 1))
    (he : emin ≤ e) : (∃ n : ℤ, (m * 2 ^ e : ℚ) = n * 2 ^ ulpExp p emin r) ∨
      (0 < r ∧ ulpExp p emin r = Int.log 2 r - p ∧ (m * 2 ^ e : ℚ) < 2 ^ Int.log 2 r) := by
  by_cases hle : ulpExp p emin r ≤ e
  · left
    obtain ⟨d, hd⟩ := Int.eq_ofNat_of_zero_le (show 0 ≤ e - ulpExp p emin r by omega)
    refine ⟨m * 2 ^ d, ?_⟩
    push_cast
    rw [mul_assoc, ← zpow_natCast (2 : ℚ) d, ← zpow_add₀ (by norm_num)]
    congr 2; omega
  · have hr0 : r ≠ 0 := by
      rintro rfl
      simp only [ulpExp, if_true] at hle
      exact hle he
    have hpos : 0 < r := lt_of_le_of_ne h (Ne.symm hr0)
    have hu : ulpExp p emin r = Int.log 2 r - p := by
      unfold ulpExp at hle ⊢
      rw [if_neg hr0] at hle ⊢
      omega
    by_cases hx : (m * 2 ^ e : ℚ) < 2 ^ Int.log 2 r
    · exact .inr ⟨hpos, hu, hx⟩
    · left
      have hx := not_lt.1 hx
      have hmq : (m : ℚ) ≤ 2 ^ (p + 1) := by exact_mod_cast hm
      have h1 : (2 : ℚ) ^ Int.log 2 r ≤ 2 ^ (((p + 1 : ℕ) : ℤ) + e) := by
        refine hx.trans ?_
        rw [zpow_add₀ (by norm_num), zpow_natCast]
        exact mul_le_mul_of_nonneg_right hmq (two_zpow_pos e).le
      have h2 := (zpow_le_zpow_iff_right₀ (by norm_num)).1 h1
      push_cast at h2
      have h3 : Int.log 2 r = ((p + 1 : ℕ) : ℤ) + e := by push_cast; omega
      rw [h3, zpow_add₀ (by norm_num), zpow_natCast] at hx
      have h4 : (2 : ℚ) ^ (p + 1) ≤ m := le_of_mul_le_mul_right hx (two_zpow_pos e)
      have h5 : m = 2 ^ (p + 1) := le_antisymm hm (by exact_mod_cast h4)
      refine ⟨2 ^ p, ?_⟩
      rw [hu, h3, h5]
      push_cast
      rw [show (p : ℤ) + 1 + e - p = e + 1 by ring, zpow_add₀ (by norm_num)]
      ring

/-- No value of the format is closer to `r` than the rounded one. -/
theorem rndMag_nearest (p : ℕ) (emin : ℤ) {r : ℚ} (h : 0 ≤ r) (m : ℕ) (e : ℤ)
    (hm : m ≤ 2 ^ (p + 1)) (he : emin ≤ e) :
    |r - rndMag p emin r| ≤ |r - m * 2 ^ e| := by
  have hU := two_zpow_pos (ulpExp p emin r)
  have key : ∀ n : ℤ, |r - rndMag p emin r| ≤ |r - n * 2 ^ ulpExp p emin r| := by
    intro n
    have h1 := rne_nearest (r / 2 ^ ulpExp p emin r) n
    have h2 := mul_le_mul_of_nonneg_right h1 hU.le
    rw [← abs_of_pos hU, ← abs_mul, ← abs_mul, abs_of_pos hU, sub_mul, sub_mul,
      div_mul_cancel₀ _ hU.ne'] at h2
    exact h2
  rcases format_cases p emin h m e hm he with ⟨n, hn⟩ | ⟨hpos, hu, hlt⟩
  · rw [hn]; exact key n
  · have h1 := (log_spec hpos).1
    have h2 := key (2 ^ p)
    have h3 : ((2 ^ p : ℤ) : ℚ) * 2 ^ ulpExp p emin r = 2 ^ Int.log 2 r := by
      push_cast
      rw [hu, ← zpow_natCast, ← zpow_add₀ (by norm_num)]
      congr 1; omega
    rw [h3] at h2
    refine h2.trans ?_
    rw [abs_of_nonneg (by linarith), abs_of_nonneg (by linarith)]
    linarith

theorem rne_tie {q : ℚ} {n : ℤ} (hn : n ≠ rne q) (h : |q - n| ≤ |q - rne q|) : rne q % 2 = 0 := by
  have h1 : (1 : ℚ) ≤ |(rne q : ℚ) - n| := by
    have : (1 : ℤ) ≤ |rne q - n| := Int.one_le_abs (sub_ne_zero.2 hn.symm)
    exact_mod_cast this
  have h2 : |(rne q : ℚ) - n| ≤ |q - n| + |q - rne q| := by
    have := abs_sub (q - n) (q - rne q)
    rwa [show q - n - (q - rne q) = (rne q : ℚ) - n by ring] at this
  have h3 : 1 / 2 ≤ |q - rne q| := by linarith
  have f1 := Int.floor_le q
  have f2 := Int.lt_floor_add_one q
  unfold rne at h3 ⊢
  simp only at h3 ⊢
  split_ifs at h3 ⊢ with a b c
  · rw [abs_of_nonneg (by linarith)] at h3; linarith
  · push_cast at h3; rw [abs_of_nonpos (by linarith)] at h3; linarith
  · exact c
  · omega

/-- When another value of the format is equally near, the magnitude chosen is even. -/
theorem encMag_tie (p : ℕ) (hp : 0 < p) (emin : ℤ) {r : ℚ} (h : 0 ≤ r) (m : ℕ) (e : ℤ)
    (hm : m ≤ 2 ^ (p + 1)) (he : emin ≤ e) (hne : (m * 2 ^ e : ℚ) ≠ rndMag p emin r)
    (ht : |r - m * 2 ^ e| ≤ |r - rndMag p emin r|) : encMag p emin r % 2 = 0 := by
  have hU := two_zpow_pos (ulpExp p emin r)
  have hev : rne (r / 2 ^ ulpExp p emin r) % 2 = 0 := by
    rcases format_cases p emin h m e hm he with ⟨n, hn⟩ | ⟨h0, hu, hlt⟩
    · rw [hn] at hne ht
      refine rne_tie (n := n) ?_ ?_
      · rintro rfl; exact hne rfl
      · rw [show r - n * 2 ^ ulpExp p emin r = (r / 2 ^ ulpExp p emin r - n) * 2 ^ ulpExp p emin r by
          field_simp, show r - rndMag p emin r = (r / 2 ^ ulpExp p emin r -
          rne (r / 2 ^ ulpExp p emin r)) * 2 ^ ulpExp p emin r by unfold rndMag; field_simp,
          abs_mul, abs_mul] at ht
        exact le_of_mul_le_mul_right ht (abs_pos.2 hU.ne')
    · exfalso
      have hlog := (log_spec h0).1
      have h1 : |r - m * 2 ^ e| = r - m * 2 ^ e := abs_of_nonneg (by linarith)
      have h2 : |r - rndMag p emin r| ≤ r - 2 ^ Int.log 2 r := by
        have := rndMag_nearest p emin h (2 ^ p) (ulpExp p emin r)
          (Nat.pow_le_pow_right (by norm_num) (by omega)) (mant_bounds p emin h).2.2.1
        have e1 : (((2 ^ p : ℕ) : ℚ) * 2 ^ ulpExp p emin r) = 2 ^ Int.log 2 r := by
          push_cast
          rw [← zpow_natCast, ← zpow_add₀ (by norm_num), hu]
          congr 1; ring
        rw [e1, abs_of_nonneg (a := r - 2 ^ Int.log 2 r) (by linarith)] at this
        exact this
      linarith
  obtain ⟨hM0, -, hE, -⟩ := mant_bounds p emin h
  unfold encMag
  obtain ⟨k, rfl⟩ : ∃ k, p = k + 1 := ⟨p - 1, by omega⟩
  generalize rne (r / 2 ^ ulpExp (k + 1) emin r) = M at *
  have : 0 ≤ (ulpExp (k + 1) emin r - emin) * 2 ^ k := by
    have : 0 ≤ ulpExp (k + 1) emin r - emin := by omega
    positivity
  rw [pow_succ, ← mul_assoc]
  generalize (ulpExp (k + 1) emin r - emin) * 2 ^ k = y at *
  omega

/-! ## Integers -/

theorem rndVal_int {n : ℤ} (h : |n| ≤ 2 ^ 53) : rndVal 52 (-1074) (n : ℚ) = n := by
  have key : ∀ k : ℕ, k ≤ 2 ^ 53 → rndMag 52 (-1074) (k : ℚ) = k := fun k hk =>
    rndMag_exact 52 (-1074) (by positivity) k 0 (by norm_num at hk ⊢; exact hk) (by norm_num)
      (by simp)
  unfold rndVal
  rw [abs_le] at h
  split
  · next hn =>
    obtain ⟨k, hk⟩ := Int.eq_ofNat_of_zero_le (show 0 ≤ -n by
      have : n < 0 := by exact_mod_cast hn
      omega)
    have h1 : (-(n : ℚ)) = (k : ℚ) := by exact_mod_cast hk
    rw [h1, key k (by omega), ← h1]; ring
  · next hn =>
    obtain ⟨k, hk⟩ := Int.eq_ofNat_of_zero_le (show 0 ≤ n by
      have : ¬ n < 0 := by exact_mod_cast hn
      omega)
    have h1 : (n : ℚ) = (k : ℚ) := by exact_mod_cast hk
    rw [h1, key k (by omega)]

theorem truncQ_int (n : ℤ) : truncQ (n : ℚ) = n := by
  unfold truncQ
  have : (-(n : ℚ)) = ((-n : ℤ) : ℚ) := by push_cast; rfl
  rw [this, Int.floor_intCast, Int.floor_intCast]
  split <;> omega

theorem intTrueDiv_exact {a b q : ℤ} (hb : b ≠ 0) (h : a = b * q) (hq : |q| ≤ 2 ^ 53) :
    intTrueDiv a b = q := by
  unfold intTrueDiv
  have : (a : ℚ) / b = q := by
    rw [h]; push_cast; field_simp
  rw [this, rndVal_int hq, truncQ_int]

theorem intDivMul_exact {a b n q : ℤ} (hb : b ≠ 0) (h : a = b * q) (hq : |q * n| ≤ 2 ^ 53) :
    intDivMul a b n = q * n := by
  unfold intDivMul
  have h1 : (a : ℚ) / b = q := by
    rw [h]; push_cast; field_simp
  rw [h1]
  have h0 : rndVal 52 (-1074) (0 : ℚ) = 0 := by
    have := rndVal_int (n := 0) (by norm_num)
    simpa using this
  by_cases hq0 : q = 0
  · subst hq0
    simp [h0, truncQ]
  by_cases hn0 : n = 0
  · subst hn0
    simp [h0, truncQ]
  rw [abs_mul] at hq
  have hq1 : 1 ≤ |q| := Int.one_le_abs hq0
  have hn1 : 1 ≤ |n| := Int.one_le_abs hn0
  have hq2 : |q| ≤ 2 ^ 53 := le_trans (by nlinarith) hq
  have hn2 : |n| ≤ 2 ^ 53 := le_trans (by nlinarith) hq
  rw [rndVal_int hq2, rndVal_int hn2, ← Int.cast_mul,
    rndVal_int (by rw [abs_mul]; exact hq), truncQ_int]

end Bf2
