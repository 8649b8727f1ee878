import Verif.FloatValue
import Verif.FloatSpec

/-! # Correct rounding of the double operations -/

namespace Bf2

theorem le_rne_even {q : ℚ} {n : ℤ} (hn : n % 2 = 0) : n ≤ rne q ↔ (n : ℚ) - 1 / 2 ≤ q := by
  have f1 := Int.floor_le q
  have f2 := Int.lt_floor_add_one q
  constructor
  · intro h
    have h' : (n : ℚ) ≤ rne q := by exact_mod_cast h
    have := rne_near q
    rw [abs_le] at this
    linarith [this.1]
  · intro h
    have h1 : n ≤ ⌊q⌋ + 1 := by
      have : (n : ℚ) < (⌊q⌋ + 2 : ℤ) := by push_cast; linarith
      have : n < ⌊q⌋ + 2 := by exact_mod_cast this
      omega
    rcases h1.lt_or_eq with h1 | h1
    · unfold rne
      simp only
      split_ifs <;> omega
    · have h2 : (n : ℚ) = ⌊q⌋ + 1 := by exact_mod_cast h1
      unfold rne
      simp only
      split_ifs with a b c
      · exfalso; linarith
      · omega
      · omega
      · omega

/-- Magnitudes whose nearest value would have an exponent above `top`. -/
theorem encMag_overflow (p : ℕ) (emin top : ℤ) (ht : emin + p ≤ top) {r : ℚ} (h : 0 ≤ r) :
    (top - p - emin + 2) * 2 ^ p ≤ (encMag p emin r : ℤ) ↔
      (2 : ℚ) ^ (top + 1) - 2 ^ (top - p - 1) ≤ r := by
  have hP : (0 : ℤ) < 2 ^ p := by positivity
  have e1 : (2 : ℚ) ^ (top + 1) = 2 * 2 ^ top := by rw [zpow_add₀ (by norm_num)]; ring
  have e2 : (2 : ℚ) ^ (top - p - 1) ≤ 2 ^ top :=
    zpow_le_zpow_right₀ (by norm_num) (by omega)
  by_cases h1 : r < 2 ^ top
  · have := encMag_le p emin h top ht h1
    constructor
    · intro h2
      exfalso
      have : (top - p - emin + 2) * 2 ^ p = (top - p - emin + 1) * 2 ^ p + 2 ^ p := by ring
      omega
    · intro h2; exfalso; linarith
  · rw [not_lt] at h1
    have hp : 0 < r := lt_of_lt_of_le (by positivity) h1
    have hlog : top ≤ Int.log 2 r :=
      (Int.zpow_le_iff_le_log (b := 2) (x := top) (by norm_num) hp).1 (by exact_mod_cast h1)
    have hu : ulpExp p emin r = Int.log 2 r - p := by
      unfold ulpExp; rw [if_neg hp.ne', max_eq_right (by omega)]
    obtain ⟨hM0, -, -, hM2⟩ := mant_bounds p emin h
    have henc : (encMag p emin r : ℤ) =
        (ulpExp p emin r - emin) * 2 ^ p + rne (r / 2 ^ ulpExp p emin r) := by
      unfold encMag
      refine Int.toNat_of_nonneg ?_
      have : 0 ≤ (ulpExp p emin r - emin) * 2 ^ p :=
        mul_nonneg (by omega) hP.le
      omega
    rw [henc]
    by_cases h2 : r < 2 ^ (top + 1)
    · have hlog' : Int.log 2 r = top := by
        have := (Int.lt_zpow_iff_log_lt (b := 2) (x := top + 1) (by norm_num) hp).1
          (by exact_mod_cast h2)
        omega
      rw [hlog'] at hu
      rw [hu]
      have e3 : (top - p - emin + 2) * 2 ^ p = (top - p - emin) * 2 ^ p + 2 ^ (p + 1) := by ring
      rw [e3, add_le_add_iff_left, le_rne_even (by rw [pow_succ]; omega)]
      have hpos : (0 : ℚ) < 2 ^ (top - p) := by positivity
      rw [le_div_iff₀ hpos]
      have e4 : (((2 ^ (p + 1) : ℤ) : ℚ) - 1 / 2) * 2 ^ (top - p) =
          2 ^ (top + 1) - 2 ^ (top - p - 1) := by
        push_cast
        rw [sub_mul, ← zpow_natCast, ← zpow_add₀ (by norm_num), zpow_sub_one₀ (by norm_num)]
        congr 1
        · congr 1; push_cast; ring
        · ring
      rw [e4]
    · rw [not_lt] at h2
      have hlog' : top + 1 ≤ Int.log 2 r :=
        (Int.zpow_le_iff_le_log (b := 2) (x := top + 1) (by norm_num) hp).1 (by exact_mod_cast h2)
      have hm := hM2 (by rw [hu]; omega)
      constructor
      · intro _
        have : (0 : ℚ) < 2 ^ (top - p - 1) := by positivity
        linarith
      · intro _
        have : (top - p - emin + 2) * 2 ^ p ≤ (ulpExp p emin r - emin + 1) * 2 ^ p :=
          mul_le_mul_of_nonneg_right (by omega) hP.le
        have e5 : (ulpExp p emin r - emin + 1) * 2 ^ p = (ulpExp p emin r - emin) * 2 ^ p + 2 ^ p := by
          ring
        omega

theorem F64.mk'_mag {neg : Bool} {n : ℕ} (h : n ≤ inf64) : (F64.mk' neg n).mag = n :=
  Nat.mod_eq_of_lt (h.trans_lt (by norm_num [inf64]))

/-- Rounding a magnitude. -/
theorem encMag_rounded {r : ℚ} (h : 0 ≤ r) :
    (min inf64 (encMag 52 (-1074) r) = inf64 ↔ (2 ^ 1024 - 2 ^ 970 : ℚ) ≤ r) ∧
    (min inf64 (encMag 52 (-1074) r) < inf64 →
      min inf64 (encMag 52 (-1074) r) = encMag 52 (-1074) r) := by
  have := encMag_overflow 52 (-1074) 1023 (by norm_num) h
  have e : (2 : ℚ) ^ ((1023 : ℤ) + 1) - 2 ^ ((1023 : ℤ) - (52 : ℕ) - 1) = 2 ^ 1024 - 2 ^ 970 := by
    have a : ((1023 : ℤ) + 1) = ((1024 : ℕ) : ℤ) := by norm_num
    have b : ((1023 : ℤ) - (52 : ℕ) - 1) = ((970 : ℕ) : ℤ) := by norm_num
    rw [a, b, zpow_natCast, zpow_natCast]
  rw [e] at this
  rw [← this]
  constructor
  · simp only [inf64]
    push_cast
    constructor <;> intro h <;> omega
  · omega

theorem ofRat_form (neg : Bool) (r : ℚ) : ∃ s, F64.ofRat neg r =
    F64.mk' s (min inf64 (encMag 52 (-1074) |r|)) ∧ (r < 0 → s = true) ∧ (0 < r → s = false) ∧
    (r = 0 → s = neg) := by
  unfold F64.ofRat
  rcases lt_trichotomy r 0 with h | h | h
  · rw [if_pos h, abs_of_neg h]
    exact ⟨true, rfl, fun _ => rfl, fun h' => absurd h' (by linarith), fun h' => absurd h' (by linarith)⟩
  · subst h
    refine ⟨neg, ?_, fun h => absurd h (by simp), fun h => absurd h (by simp), fun _ => rfl⟩
    rw [if_neg (by simp), if_neg (by simp), abs_zero]
    have : encMag 52 (-1074) 0 = 0 := by
      have := enc_dec 52 (-1074) 0
      simpa [decMag] using this
    rw [this]
    rfl
  · rw [if_neg (by linarith), if_pos h, abs_of_pos h]
    exact ⟨false, rfl, fun h' => absurd h' (by linarith), fun _ => rfl, fun h' => absurd h' (by linarith)⟩

/-- Nearest and even, for numbers of either sign. -/
theorem signed_nearest {a : ℚ} (ha : 0 ≤ a) (s s' : Bool) (b : ℕ) :
    |(if s then -1 else 1) * a - (if s then -1 else 1) * rndMag 52 (-1074) a| ≤
      |(if s then -1 else 1) * a - (if s' then -1 else 1) * decMag 52 (-1074) b| ∧
    ((if s' then -1 else 1) * decMag 52 (-1074) b ≠ (if s then -1 else 1) * rndMag 52 (-1074) a →
      |(if s then -1 else 1) * a - (if s' then -1 else 1) * decMag 52 (-1074) b| ≤
        |(if s then -1 else 1) * a - (if s then -1 else 1) * rndMag 52 (-1074) a| →
      encMag 52 (-1074) a % 2 = 0) := by
  obtain ⟨m, e, hm, he, hv, -⟩ := decMag_form 52 (-1074) b
  have near := rndMag_nearest 52 (-1074) ha m e hm.le he
  have near0 := rndMag_nearest 52 (-1074) ha 0 0 (by norm_num) (by norm_num)
  have key := encMag_tie 52 (by norm_num) (-1074) ha m e hm.le he
  have key0 := encMag_tie 52 (by norm_num) (-1074) ha 0 0 (by norm_num) (by norm_num)
  have hw := decMag_nonneg 52 (-1074) b
  rw [← hv] at key near
  simp only [Nat.cast_zero, zero_mul, sub_zero, abs_of_nonneg ha] at near0 key0
  generalize decMag 52 (-1074) b = q at *
  generalize rndMag 52 (-1074) a = t at *
  cases s <;> cases s' <;> simp only [Bool.false_eq_true, if_false, if_true, one_mul, neg_one_mul]
  · exact ⟨near, fun hne ht => key hne ht⟩
  · rw [sub_neg_eq_add, abs_of_nonneg (show 0 ≤ a + q by linarith)]
    refine ⟨by linarith, fun hne ht => ?_⟩
    have : q = 0 := by linarith
    subst this
    exact key0 (by simpa using hne) (by linarith)
  · rw [show -a - -t = -(a - t) by ring, abs_neg, show -a - q = -(a + q) by ring, abs_neg,
      abs_of_nonneg (show 0 ≤ a + q by linarith)]
    refine ⟨by linarith, fun hne ht => ?_⟩
    have : q = 0 := by linarith
    subst this
    exact key0 (fun h => hne (by rw [← h]; simp)) (by linarith)
  · rw [show -a - -t = -(a - t) by ring, abs_neg, show -a - -q = -(a - q) by ring, abs_neg]
    exact ⟨near, fun hne ht => key (fun h => hne (by rw [h])) ht⟩

theorem ofRat_rounded (neg : Bool) (r : ℚ) : Rounded r (F64.ofRat neg r) := by
  obtain ⟨s, he, hs1, hs2, -⟩ := ofRat_form neg r
  have ha := abs_nonneg r
  obtain ⟨ho, hf⟩ := encMag_rounded ha
  have hmag : (F64.mk' s (min inf64 (encMag 52 (-1074) |r|))).mag =
      min inf64 (encMag 52 (-1074) |r|) := F64.mk'_mag (min_le_left _ _)
  have hr : r = (if s then -1 else 1) * |r| := by
    rcases lt_trichotomy r 0 with h | h | h
    · rw [hs1 h, abs_of_neg h]; simp
    · subst h; simp
    · rw [hs2 h, abs_of_pos h]; simp
  have hval : (F64.mk' s (min inf64 (encMag 52 (-1074) |r|))).isFin = true →
      encMag 52 (-1074) |r| = min inf64 (encMag 52 (-1074) |r|) ∧
      (F64.mk' s (min inf64 (encMag 52 (-1074) |r|))).value =
        (if s then -1 else 1) * rndMag 52 (-1074) |r| := by
    intro h
    simp only [F64.isFin, hmag, decide_eq_true_eq] at h
    have := hf h
    refine ⟨this.symm, ?_⟩
    rw [value_eq, hmag, this, dec_enc 52 (-1074) ha]
    rfl
  rw [he]
  refine ⟨?_, ?_, ⟨hs1, hs2⟩, ?_, ?_⟩
  · simp only [F64.isNaN, hmag, decide_eq_false_iff_not]
    omega
  · rw [← ho]
    simp only [F64.isInf, hmag, decide_eq_true_eq]
  · intro h z _
    rw [(hval h).2, value_eq z]
    have := (signed_nearest ha s z.neg z.mag).1
    rwa [← hr] at this
  · intro h z _ hne ht
    rw [(hval h).2, value_eq z] at hne ht
    have := (signed_nearest ha s z.neg z.mag).2
    rw [← hr] at this
    rw [hmag, ← (hval h).1]
    exact this hne ht

/-- A value that is a double is not changed. -/
theorem Rounded.exact {r : ℚ} {y z : F64} (h : Rounded r y) (hz : z.isFin = true) (he : z.value = r) :
    y.isFin = true ∧ y.value = r := by
  have hlt : ¬ (2 ^ 1024 - 2 ^ 970 : ℚ) ≤ |r| := by
    rw [← he, value_eq]
    have hz' : z.mag < inf64 := by simpa [F64.isFin] using hz
    have hd := decMag_nonneg 52 (-1074) z.mag
    have ha : |(if z.neg then -1 else 1) * decMag 52 (-1074) z.mag| = decMag 52 (-1074) z.mag := by
      cases z.neg <;> simp [abs_of_nonneg hd]
    rw [ha]
    have h1 := (encMag_rounded hd).1
    rw [enc_dec] at h1
    rw [← h1]
    omega
  have hfin : y.isFin = true := by
    have h1 := h.notNaN
    have h2 := h.overflow
    simp only [F64.isNaN, F64.isInf, F64.isFin, decide_eq_true_eq, decide_eq_false_iff_not] at *
    have : ¬ y.mag = inf64 := fun hh => hlt (h2.1 hh)
    omega
  refine ⟨hfin, ?_⟩
  have := h.nearest hfin z hz
  rw [he, sub_self, abs_zero] at this
  have h0 := abs_nonneg (r - y.value)
  have : r - y.value = 0 := abs_eq_zero.1 (by linarith)
  linarith

theorem add_rounded {x y : F64} (hx : x.isFin = true) (hy : y.isFin = true) :
    Rounded (x.value + y.value) (F64.add x y) := by
  simp only [F64.isFin, decide_eq_true_eq] at hx hy
  have e : F64.add x y = F64.ofRat (x.neg && y.neg) (x.toRat + y.toRat) := by
    unfold F64.add F64.nanOr F64.isNaN F64.isInf
    simp only [decide_eq_true_eq]
    rw [if_neg (by omega), if_neg (by omega), if_neg (by omega), if_neg (by omega)]
  rw [e, toRat_eq, toRat_eq]
  exact ofRat_rounded _ _

theorem negate_value (x : F64) : x.negate.value = - x.value := by
  rw [value_eq, value_eq]
  simp only [F64.negate]
  rcases Bool.eq_false_or_eq_true x.neg with h | h <;> simp [h]

theorem sub_rounded {x y : F64} (hx : x.isFin = true) (hy : y.isFin = true) :
    Rounded (x.value - y.value) (F64.sub x y) := by
  have e : F64.sub x y = F64.add x y.negate := by
    simp only [F64.isFin, decide_eq_true_eq] at hx hy
    unfold F64.sub F64.nanOr F64.isNaN
    simp only [decide_eq_true_eq]
    rw [if_neg (by omega), if_neg (by omega)]
  rw [e, sub_eq_add_neg, ← negate_value]
  exact add_rounded hx hy

theorem mul_rounded {x y : F64} (hx : x.isFin = true) (hy : y.isFin = true) :
    Rounded (x.value * y.value) (F64.mul x y) := by
  simp only [F64.isFin, decide_eq_true_eq] at hx hy
  have e : F64.mul x y = F64.ofRat (x.neg != y.neg) (x.toRat * y.toRat) := by
    unfold F64.mul F64.nanOr F64.isNaN F64.isInf
    simp only [decide_eq_true_eq, Bool.or_eq_true]
    rw [if_neg (by omega), if_neg (by omega), if_neg (by omega)]
  rw [e, toRat_eq, toRat_eq]
  exact ofRat_rounded _ _

theorem half_rounded {x : F64} (hx : x.isFin = true) : Rounded (x.value / 2) (F64.half x) := by
  simp only [F64.isFin, decide_eq_true_eq] at hx
  have e : F64.half x = F64.ofRat x.neg (x.toRat / 2) := by
    unfold F64.half F64.isNaN F64.isInf
    simp only [decide_eq_true_eq]
    rw [if_neg (by omega), if_neg (by omega)]
  rw [e, toRat_eq]
  exact ofRat_rounded _ _

/-- A nonzero finite double is its own rounded value. -/
theorem ofRat_value {x : F64} (neg : Bool) (hx : x.isFin = true) (h0 : x.mag ≠ 0) :
    F64.ofRat neg x.value = x := by
  obtain ⟨s, he, hs1, hs2, -⟩ := ofRat_form neg x.value
  simp only [F64.isFin, decide_eq_true_eq] at hx
  have hd : 0 < decMag 52 (-1074) x.mag := by
    rcases (decMag_nonneg 52 (-1074) x.mag).lt_or_eq with h | h
    · exact h
    · have := enc_dec 52 (-1074) x.mag
      rw [← h] at this
      have h00 : encMag 52 (-1074) 0 = 0 := by
        have := enc_dec 52 (-1074) 0
        simpa [decMag] using this
      omega
  have habs : |x.value| = decMag 52 (-1074) x.mag := by
    rw [value_eq]
    cases x.neg <;> simp [abs_of_pos hd]
  rw [he, habs, enc_dec, min_eq_right hx.le]
  have hs : s = x.neg := by
    rw [value_eq] at hs1 hs2
    rcases Bool.eq_false_or_eq_true x.neg with h | h
    · rw [h] at hs1 ⊢; exact hs1 (by simp [hd])
    · rw [h] at hs2 ⊢; exact hs2 (by simp [hd])
  subst hs
  have := F64.mk'_mag (neg := x.neg) hx.le
  cases x with
  | mk n m l =>
    simp only [F64.mk'] at *
    congr

/-- Adding a zero to a double that is not a signalling NaN. -/
theorem add_zero' {x z : F64} (hq : x.isNaN = true → x.quiet = x) (hz : z.mag = 0) :
    F64.add x z = if x.mag = 0 then F64.mk' (x.neg && z.neg) 0 else x := by
  by_cases hx : x.isNaN = true
  · unfold F64.add F64.nanOr
    rw [if_pos hx, hq hx, if_neg]
    simp only [F64.isNaN, decide_eq_true_eq] at hx
    omega
  simp only [F64.isNaN, decide_eq_true_eq] at hx
  unfold F64.add F64.nanOr F64.isNaN F64.isInf
  simp only [decide_eq_true_eq, hz]
  rw [if_neg hx, if_neg (by decide)]
  have hzv : z.value = 0 := by rw [value_eq, hz]; simp [decMag]
  by_cases h0 : x.mag = 0
  · have hxv : x.value = 0 := by rw [value_eq, h0]; simp [decMag]
    rw [if_neg (by rw [h0]; decide), if_neg (by decide), if_pos h0, toRat_eq, toRat_eq, hxv, hzv]
    simp [F64.ofRat]
  · rw [if_neg h0]
    by_cases hi : x.mag = inf64
    · rw [if_pos hi]; simp
    · rw [if_neg hi, if_neg (by decide), toRat_eq, toRat_eq, hzv, add_zero]
      exact ofRat_value _ (by simp only [F64.isFin, decide_eq_true_eq]; omega) h0

theorem F64.quiet_quiet (x : F64) (h : x.isNaN = true) : x.quiet.isNaN = true ∧ x.quiet.quiet = x.quiet := by
  simp only [F64.isNaN, decide_eq_true_eq] at h
  have hx := x.lt
  by_cases hq : x.mag / 2 ^ 51 % 2 = 0
  · have e : x.quiet = F64.mk' x.neg (x.mag + 2 ^ 51) := by unfold F64.quiet; rw [if_pos hq]
    have hm : (F64.mk' x.neg (x.mag + 2 ^ 51)).mag = x.mag + 2 ^ 51 := by
      simp only [F64.mk']
      exact Nat.mod_eq_of_lt (by omega)
    rw [e]
    refine ⟨by simp only [F64.isNaN, decide_eq_true_eq, hm]; omega, ?_⟩
    unfold F64.quiet
    rw [hm, if_neg (by omega)]
  · have e : x.quiet = x := by unfold F64.quiet; rw [if_neg hq]
    rw [e]
    exact ⟨by simpa [F64.isNaN] using h, e⟩

/-- Adding a double that is not a NaN to a zero. -/
theorem zero_add'' {x z : F64} (hx : ¬ x.isNaN = true) (hz : z.mag = 0) :
    F64.add z x = if x.mag = 0 then F64.mk' (z.neg && x.neg) 0 else x := by
  simp only [F64.isNaN, decide_eq_true_eq] at hx
  unfold F64.add F64.nanOr F64.isNaN F64.isInf
  simp only [decide_eq_true_eq, hz]
  rw [if_neg (by decide), if_neg hx, if_neg (by decide)]
  have hzv : z.value = 0 := by rw [value_eq, hz]; simp [decMag]
  by_cases h0 : x.mag = 0
  · have hxv : x.value = 0 := by rw [value_eq, h0]; simp [decMag]
    rw [if_neg (by rw [h0]; decide), if_pos h0, toRat_eq, toRat_eq, hxv, hzv]
    simp [F64.ofRat]
  · rw [if_neg h0]
    by_cases hi : x.mag = inf64
    · rw [if_pos hi]
    · rw [if_neg hi, toRat_eq, toRat_eq, hzv, zero_add]
      exact ofRat_value _ (by simp only [F64.isFin, decide_eq_true_eq]; omega) h0

theorem F64.eq_zero_iff (x : F64) : x.mag = 0 ↔ x = F64.mk' x.neg 0 := by
  constructor
  · intro h
    cases x with
    | mk n m l => simp only at h; subst h; simp [F64.mk']
  · intro h
    rw [h]; rfl

/-- `(0.0 + x) + t` is `x + t` unless both are `-0.0`. -/
theorem add_zero_first (x t : F64) (h : x ≠ F64.zero.negate ∨ t ≠ F64.zero.negate) :
    F64.add (F64.add F64.zero x) t = F64.add x t := by
  by_cases hn : x.isNaN = true
  · have h1 : F64.add F64.zero x = x.quiet := by
      unfold F64.add F64.nanOr
      rw [if_neg (by decide), if_pos hn]
    obtain ⟨h2, h3⟩ := F64.quiet_quiet x hn
    rw [h1]
    unfold F64.add F64.nanOr
    rw [if_pos h2, if_pos hn, h3]
  rw [zero_add'' hn rfl]
  by_cases h0 : x.mag = 0
  · rw [if_pos h0]
    have e : F64.mk' (F64.zero.neg && x.neg) 0 = F64.zero := rfl
    rw [e]
    rcases hs : x.neg with _ | _
    · have hx := (F64.eq_zero_iff x).1 h0
      rw [hs] at hx
      rw [hx]; rfl
    · have hx : x = F64.zero.negate := by
        rw [(F64.eq_zero_iff x).1 h0, hs]; rfl
      have ht := h.resolve_left (fun hh => hh hx)
      by_cases htn : t.isNaN = true
      · have hz : ∀ z : F64, z.isNaN = false → F64.add z t = t.quiet := by
          intro z hz
          unfold F64.add F64.nanOr
          rw [hz, if_pos htn]; simp
        rw [hz _ (by decide), hz _ (by simpa using hn)]
      · rw [zero_add'' htn rfl, zero_add'' htn h0]
        by_cases ht0 : t.mag = 0
        · rw [if_pos ht0, if_pos ht0]
          rcases hts : t.neg with _ | _
          · simp
          · exact absurd (by rw [(F64.eq_zero_iff t).1 ht0, hts]; rfl) ht
        · rw [if_neg ht0, if_neg ht0]
  · rw [if_neg h0]

/-- Adding to or of an infinity or NaN. -/
theorem add_special (x y : F64) :
    (x.isNaN = true ∨ y.isNaN = true → (F64.add x y).isNaN = true) ∧
    (x.isInf = true → y.isFin = true → F64.add x y = x) ∧
    (x.isFin = true → y.isInf = true → F64.add x y = y) ∧
    (x.isInf = true → y.isInf = true → x.neg = y.neg → F64.add x y = x) ∧
    (x.isInf = true → y.isInf = true → x.neg ≠ y.neg → (F64.add x y).isNaN = true) := by
  have hq : ∀ z : F64, z.isNaN = true → z.quiet.isNaN = true := by
    intro z hz
    unfold F64.quiet
    simp only [F64.isNaN, decide_eq_true_eq] at hz ⊢
    split
    · have := z.lt
      have : z.mag + 2 ^ 51 < 2 ^ 63 := by omega
      simp only [F64.mk']
      rw [Nat.mod_eq_of_lt this]; omega
    · exact hz
  refine ⟨?_, ?_, ?_, ?_, ?_⟩
  · intro h
    unfold F64.add F64.nanOr
    by_cases hx : x.isNaN = true
    · rw [if_pos hx]; exact hq x hx
    · rw [if_neg hx, if_pos (h.resolve_left hx)]; exact hq y (h.resolve_left hx)
  all_goals
    intro h1 h2
    simp only [F64.isFin, F64.isInf, decide_eq_true_eq] at h1 h2
    unfold F64.add F64.nanOr F64.isNaN F64.isInf
    simp only [decide_eq_true_eq]
    rw [if_neg (by omega), if_neg (by omega)]
  · rw [if_pos h1]
    have : ¬ y.mag = inf64 := by omega
    simp [this]
  · rw [if_neg (by omega), if_pos h2]
  · intro h; rw [if_pos h1]; simp [h]
  · intro h; rw [if_pos h1, if_pos (by simp [h, h2])]; decide

end Bf2
