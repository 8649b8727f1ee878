import Verif.FloatArith
import Verif.NarrowSpec

/-! # Lemmas: the sum of two binary32 numbers, rounded to a double and then to binary32 -/

namespace Bf2

theorem rne_unique {q : ℚ} {n : ℤ} (h : |q - n| < 1 / 2) : rne q = n := by
  have h1 := abs_le.1 (rne_near q)
  have h2 := abs_lt.1 h
  have h3 : (rne q : ℚ) < n + 1 := by linarith
  have h4 : (n : ℚ) < rne q + 1 := by linarith
  have h5 : rne q < n + 1 := by exact_mod_cast h3
  have h6 : n < rne q + 1 := by exact_mod_cast h4
  omega

/-- Rounding to a finer grid first changes the result only if it gives the middle between two integers. -/
theorem rne_twice {q : ℚ} (h : ∀ k : ℤ, (rne (q * 2 ^ 29) : ℚ) / 2 ^ 29 = k + 1 / 2 →
    (rne (q * 2 ^ 29) : ℚ) / 2 ^ 29 = q) : rne ((rne (q * 2 ^ 29) : ℚ) / 2 ^ 29) = rne q := by
  have h1 := abs_le.1 (rne_near q)
  have lo : (rne q : ℚ) - 1 / 2 ≤ (rne (q * 2 ^ 29) : ℚ) / 2 ^ 29 := by
    have := le_rne (q := q * 2 ^ 29) (n := (2 * rne q - 1) * 2 ^ 28) (by push_cast; linarith)
    have h2 : (((2 * rne q - 1) * 2 ^ 28 : ℤ) : ℚ) ≤ rne (q * 2 ^ 29) := by exact_mod_cast this
    generalize rne (q * 2 ^ 29) = R at h2 ⊢
    rw [le_div_iff₀ (by norm_num)]
    push_cast at h2
    norm_num at h2 ⊢
    linarith
  have hi : (rne (q * 2 ^ 29) : ℚ) / 2 ^ 29 ≤ (rne q : ℚ) + 1 / 2 := by
    have := rne_le (q := q * 2 ^ 29) (n := (2 * rne q + 1) * 2 ^ 28) (by push_cast; linarith)
    have h2 : (rne (q * 2 ^ 29) : ℚ) ≤ (((2 * rne q + 1) * 2 ^ 28 : ℤ) : ℚ) := by exact_mod_cast this
    generalize rne (q * 2 ^ 29) = R at h2 ⊢
    rw [div_le_iff₀ (by norm_num)]
    push_cast at h2
    norm_num at h2 ⊢
    linarith
  rcases lo.eq_or_lt with e | lo
  · rw [h (rne q - 1) (by push_cast; linarith)]
  rcases hi.eq_or_lt with e | hi
  · rw [h (rne q) e]
  · exact rne_unique (abs_lt.2 ⟨by linarith, by linarith⟩)

theorem log_eq {r : ℚ} {k : ℤ} (h1 : (2 : ℚ) ^ k ≤ r) (h2 : r < 2 ^ (k + 1)) : Int.log 2 r = k := by
  have hpos : 0 < r := (two_zpow_pos k).trans_le h1
  obtain ⟨a, b⟩ := log_spec hpos
  have c : k < Int.log 2 r + 1 := (zpow_lt_zpow_iff_right₀ (by norm_num : (1 : ℚ) < 2)).1 (h1.trans_lt b)
  have d : Int.log 2 r < k + 1 := (zpow_lt_zpow_iff_right₀ (by norm_num : (1 : ℚ) < 2)).1 (a.trans_lt h2)
  omega

theorem zpow_split (a b : ℤ) : (2 : ℚ) ^ a = 2 ^ (a - b) * 2 ^ b := by
  rw [← zpow_add₀ (by norm_num)]
  congr 1
  ring

/-- **The sum of two numbers of 24 bits rounded to 53 bits and then to 24 is the sum rounded to 24.** -/
theorem sum_twice {a b e f : ℤ} (ha : |a| ≤ 2 ^ 24) (hb : |b| ≤ 2 ^ 24) (hf : -149 ≤ f) (hfe : f ≤ e) {s : ℚ}
    (hs : s = |(a : ℚ) * 2 ^ e + b * 2 ^ f|) :
    encMag 23 (-149) (rndMag 52 (-1074) s) = encMag 23 (-149) s := by
  have h0 : 0 ≤ s := by rw [hs]; exact abs_nonneg _
  -- the sum is a multiple of `2^f`
  obtain ⟨d, hd⟩ := Int.eq_ofNat_of_zero_le (show 0 ≤ e - f by omega)
  have hN : s = ((a * 2 ^ d + b).natAbs : ℚ) * 2 ^ f := by
    rw [hs, zpow_split e f, hd, ← mul_assoc, ← add_mul, abs_mul, abs_of_pos (two_zpow_pos f), Nat.cast_natAbs]
    push_cast
    rfl
  rcases h0.eq_or_lt with hz | hpos
  · rw [rndMag_exact 52 (-1074) h0 0 0 (by norm_num) (by norm_num) (by rw [← hz]; simp)]
  obtain ⟨hl1, hl2⟩ := log_spec hpos
  generalize hL : Int.log 2 s = L at hl1 hl2
  by_cases hexact : L - 52 ≤ f
  · rw [rndMag_exact 52 (-1074) h0 (a * 2 ^ d + b).natAbs f ?_ (by omega) hN]
    have h1 : ((a * 2 ^ d + b).natAbs : ℚ) * 2 ^ f < 2 ^ (53 : ℤ) * 2 ^ f := by
      rw [← hN, ← zpow_add₀ (by norm_num)]
      refine hl2.trans_le (zpow_le_zpow_right₀ (by norm_num) (by omega))
    have h2 := lt_of_mul_lt_mul_right h1 (two_zpow_pos f).le
    have h3 : ((a * 2 ^ d + b).natAbs : ℚ) < ((2 ^ 53 : ℕ) : ℚ) := by
      push_cast
      exact_mod_cast h2
    exact (by exact_mod_cast h3.le)
  · rw [not_le] at hexact
    have hne : s ≠ 0 := hpos.ne'
    have u52 : ulpExp 52 (-1074) s = L - 52 := by
      unfold ulpExp
      rw [if_neg hne, hL]
      push_cast
      omega
    have u23 : ulpExp 23 (-149) s = L - 23 := by
      unfold ulpExp
      rw [if_neg hne, hL]
      push_cast
      omega
    have hE := two_zpow_pos (L - 23)
    -- the sum in units of the last place of binary32
    obtain ⟨q, hq⟩ : ∃ q, q = s / 2 ^ (L - 23) := ⟨_, rfl⟩
    have hsq : s = q * 2 ^ (L - 23) := by rw [hq, div_mul_cancel₀ _ hE.ne']
    have hq1 : (2 : ℚ) ^ 23 ≤ q := by
      rw [hq, le_div_iff₀ hE]
      have : (2 : ℚ) ^ 23 * 2 ^ (L - 23) = 2 ^ L := by
        rw [← zpow_natCast, ← zpow_add₀ (by norm_num)]
        congr 1
        push_cast
        ring
      rw [this]
      exact hl1
    have hq2 : q < 2 ^ 24 := by
      rw [hq, div_lt_iff₀ hE]
      have : (2 : ℚ) ^ 24 * 2 ^ (L - 23) = 2 ^ (L + 1) := by
        rw [← zpow_natCast, ← zpow_add₀ (by norm_num)]
        congr 1
        push_cast
        ring
      rw [this]
      exact hl2
    have h29 : s / 2 ^ (L - 52) = q * 2 ^ 29 := by
      rw [hsq, div_eq_iff (two_zpow_pos _).ne', mul_assoc]
      congr 1
      rw [← zpow_natCast, ← zpow_add₀ (by norm_num)]
      congr 1
      push_cast
      ring
    obtain ⟨q', hq'⟩ : ∃ q', q' = (rne (q * 2 ^ 29) : ℚ) / 2 ^ 29 := ⟨_, rfl⟩
    have hy : rndMag 52 (-1074) s = q' * 2 ^ (L - 23) := by
      unfold rndMag
      rw [u52, h29, hq', div_mul_eq_mul_div, eq_div_iff (by norm_num), mul_assoc]
      congr 1
      rw [← zpow_natCast, ← zpow_add₀ (by norm_num)]
      congr 1
      push_cast
      ring
    have near : |q - q'| ≤ 1 / 2 ^ 30 := by
      have h1 := rne_near (q * 2 ^ 29)
      have h2 : q - q' = (q * 2 ^ 29 - rne (q * 2 ^ 29)) / 2 ^ 29 := by
        rw [hq']
        field_simp
      rw [h2, abs_div, abs_of_pos (by norm_num : (0 : ℚ) < 2 ^ 29), div_le_iff₀ (by norm_num)]
      refine h1.trans (le_of_eq (by norm_num))
    have hq1' : (2 : ℚ) ^ 23 ≤ q' := by
      have := le_rne (q := q * 2 ^ 29) (n := 2 ^ 52) (by push_cast; linarith)
      have h2 : ((2 ^ 52 : ℤ) : ℚ) ≤ rne (q * 2 ^ 29) := by exact_mod_cast this
      rw [hq', le_div_iff₀ (by norm_num)]
      push_cast at h2
      linarith
    have hq2' : q' ≤ 2 ^ 24 := by
      have := rne_le (q := q * 2 ^ 29) (n := 2 ^ 53) (by push_cast; linarith)
      have h2 : (rne (q * 2 ^ 29) : ℚ) ≤ ((2 ^ 53 : ℤ) : ℚ) := by exact_mod_cast this
      rw [hq', div_le_iff₀ (by norm_num)]
      push_cast at h2
      linarith
    -- the smaller summand is tiny
    have hv : |(b : ℚ) * 2 ^ (f - (L - 23))| ≤ 1 / 2 ^ 6 := by
      rw [abs_mul, abs_of_pos (two_zpow_pos _)]
      have h1 : |(b : ℚ)| ≤ 2 ^ 24 := by exact_mod_cast hb
      have h2 : (2 : ℚ) ^ (f - (L - 23)) ≤ 2 ^ (-30 : ℤ) := zpow_le_zpow_right₀ (by norm_num) (by omega)
      calc |(b : ℚ)| * 2 ^ (f - (L - 23)) ≤ 2 ^ 24 * 2 ^ (-30 : ℤ) :=
            mul_le_mul h1 h2 (two_zpow_pos _).le (by norm_num)
        _ = 1 / 2 ^ 6 := by norm_num
    have hqs : q = |(a : ℚ) * 2 ^ (e - (L - 23)) + b * 2 ^ (f - (L - 23))| := by
      have hdiv : |(a : ℚ) * 2 ^ e + b * 2 ^ f| / 2 ^ (L - 23) = |((a : ℚ) * 2 ^ e + b * 2 ^ f) / 2 ^ (L - 23)| := by
        rw [abs_div, abs_of_pos hE]
      rw [hq, hs, hdiv, add_div, mul_div_assoc, mul_div_assoc,
        ← zpow_sub₀ (by norm_num), ← zpow_sub₀ (by norm_num)]
    have free : ∀ k : ℤ, (rne (q * 2 ^ 29) : ℚ) / 2 ^ 29 = k + 1 / 2 →
        (rne (q * 2 ^ 29) : ℚ) / 2 ^ 29 = q := by
      intro k hk
      exfalso
      rw [← hq'] at hk
      generalize (b : ℚ) * 2 ^ (f - (L - 23)) = v at hv hqs
      have near := abs_le.1 near
      have tri : |q - (|(a : ℚ) * 2 ^ (e - (L - 23))|)| ≤ 1 / 2 ^ 6 := by
        rw [hqs]
        refine (abs_abs_sub_abs_le _ _).trans ?_
        rw [add_sub_cancel_left]
        exact hv
      have tri := abs_le.1 tri
      by_cases he : L - 23 ≤ e
      · obtain ⟨c, hc⟩ := Int.eq_ofNat_of_zero_le (show 0 ≤ e - (L - 23) by omega)
        have hK : |(a : ℚ) * 2 ^ (e - (L - 23))| = ((|a * 2 ^ c| : ℤ) : ℚ) := by
          rw [hc]
          push_cast
          rfl
        rw [hK] at tri
        generalize |a * 2 ^ c| = K at tri
        have h1 : ((2 * K - 2 * k - 1 : ℤ) : ℚ) < 1 := by
          push_cast
          norm_num at near tri
          linarith
        have h2 : (-1 : ℚ) < ((2 * K - 2 * k - 1 : ℤ) : ℚ) := by
          push_cast
          norm_num at near tri
          linarith
        have h1 : 2 * K - 2 * k - 1 < 1 := by exact_mod_cast h1
        have h2 : -1 < 2 * K - 2 * k - 1 := by exact_mod_cast h2
        omega
      · have hu : |(a : ℚ) * 2 ^ (e - (L - 23))| ≤ 2 ^ 23 := by
          rw [abs_mul, abs_of_pos (two_zpow_pos _)]
          have h1 : |(a : ℚ)| ≤ 2 ^ 24 := by exact_mod_cast ha
          have h2 : (2 : ℚ) ^ (e - (L - 23)) ≤ 2 ^ (-1 : ℤ) := zpow_le_zpow_right₀ (by norm_num) (by omega)
          calc |(a : ℚ)| * 2 ^ (e - (L - 23)) ≤ 2 ^ 24 * 2 ^ (-1 : ℤ) :=
                mul_le_mul h1 h2 (two_zpow_pos _).le (by norm_num)
            _ = 2 ^ 23 := by norm_num
        have h1 : ((2 ^ 23 - 1 : ℤ) : ℚ) < k := by
          push_cast
          linarith
        have h1 : 2 ^ 23 - 1 < k := by exact_mod_cast h1
        have h2 : ((2 ^ 23 : ℤ) : ℚ) ≤ k := by exact_mod_cast (by omega : (2 : ℤ) ^ 23 ≤ k)
        push_cast at h2
        norm_num at near tri hu h2
        linarith
    have key := rne_twice free
    rw [← hq'] at key
    have left : encMag 23 (-149) s = ((L - 23 - -149) * 2 ^ 23 + rne q).toNat := by
      unfold encMag
      rw [u23, ← hq]
    rw [left, ← key, hy]
    rcases hq2'.eq_or_lt with e24 | lt24
    · have hlog : Int.log 2 (q' * 2 ^ (L - 23) : ℚ) = L + 1 := by
        have e1 : q' * 2 ^ (L - 23) = 2 ^ (L + 1) := by
          rw [e24, ← zpow_natCast, ← zpow_add₀ (by norm_num)]
          congr 1
          push_cast
          ring
        rw [e1]
        exact log_eq le_rfl (zpow_lt_zpow_right₀ (by norm_num) (by omega))
      unfold encMag
      have hu : ulpExp 23 (-149) (q' * 2 ^ (L - 23)) = L - 22 := by
        unfold ulpExp
        rw [if_neg (by positivity), hlog]
        push_cast
        omega
      rw [hu]
      have e2 : q' * 2 ^ (L - 23) / 2 ^ (L - 22) = ((2 ^ 23 : ℤ) : ℚ) := by
        rw [e24, mul_div_assoc, ← zpow_sub₀ (by norm_num), show L - 23 - (L - 22) = -1 by ring]
        norm_num
      have e3 : rne q' = 2 ^ 24 := by
        have := rne_int (2 ^ 24)
        push_cast at this
        rw [e24]
        norm_num at this ⊢
        exact this
      rw [e2, rne_int, e3]
      congr 1
      ring
    · have hlog : Int.log 2 (q' * 2 ^ (L - 23) : ℚ) = L := by
        refine log_eq ?_ ?_
        · rw [zpow_split L (L - 23), show L - (L - 23) = ((23 : ℕ) : ℤ) by push_cast; ring, zpow_natCast]
          exact mul_le_mul_of_nonneg_right hq1' hE.le
        · rw [zpow_split (L + 1) (L - 23), show L + 1 - (L - 23) = ((24 : ℕ) : ℤ) by push_cast; ring, zpow_natCast]
          exact mul_lt_mul_of_pos_right lt24 hE
      unfold encMag
      have hu : ulpExp 23 (-149) (q' * 2 ^ (L - 23)) = L - 23 := by
        unfold ulpExp
        have : 0 < q' := by linarith [show (0 : ℚ) < 2 ^ 23 by norm_num]
        rw [if_neg (by positivity), hlog]
        push_cast
        omega
      rw [hu, mul_div_cancel_right₀ _ hE.ne']

/-! ## Words -/

/-- Nearest and even, for binary32 numbers of either sign. -/
theorem signed_nearest32 {a : ℚ} (ha : 0 ≤ a) (s s' : Bool) (b : ℕ) :
    |(if s then -1 else 1) * a - (if s then -1 else 1) * rndMag 23 (-149) a| ≤
      |(if s then -1 else 1) * a - (if s' then -1 else 1) * decMag 23 (-149) b| ∧
    ((if s' then -1 else 1) * decMag 23 (-149) b ≠ (if s then -1 else 1) * rndMag 23 (-149) a →
      |(if s then -1 else 1) * a - (if s' then -1 else 1) * decMag 23 (-149) b| ≤
        |(if s then -1 else 1) * a - (if s then -1 else 1) * rndMag 23 (-149) a| →
      encMag 23 (-149) a % 2 = 0) := by
  obtain ⟨m, e, hm, he, hv, -⟩ := decMag_form 23 (-149) b
  have near := rndMag_nearest 23 (-149) ha m e hm.le he
  have near0 := rndMag_nearest 23 (-149) ha 0 0 (by norm_num) (by norm_num)
  have key := encMag_tie 23 (by norm_num) (-149) ha m e hm.le he
  have key0 := encMag_tie 23 (by norm_num) (-149) ha 0 0 (by norm_num) (by norm_num)
  have hw := decMag_nonneg 23 (-149) b
  rw [← hv] at key near
  simp only [Nat.cast_zero, zero_mul, sub_zero, abs_of_nonneg ha] at near0 key0
  generalize decMag 23 (-149) b = q at *
  generalize rndMag 23 (-149) a = t at *
  cases s <;> cases s' <;> simp only [Bool.false_eq_true, if_false, if_true, one_mul, neg_one_mul]
  · exact ⟨near, fun hne ht => key hne ht⟩
  · rw [sub_neg_eq_add, abs_of_nonneg (show 0 ≤ a + q by linarith)]
    refine ⟨by linarith, fun hne ht => ?_⟩
    have : q = 0 := by linarith
    subst this
    exact key0 (by simpa using hne) (by linarith)
  · rw [show -a - -t = -(a - t) by ring, abs_neg, show -a - q = -(a + q) by ring, abs_neg,
      abs_of_nonneg (show 0 ≤ a + q by linarith)]
    refine ⟨by linarith, fun hne ht => ?_⟩
    have : q = 0 := by linarith
    subst this
    exact key0 (fun h => hne (by rw [← h]; simp)) (by linarith)
  · rw [show -a - -t = -(a - t) by ring, abs_neg, show -a - -q = -(a - q) by ring, abs_neg]
    exact ⟨near, fun hne ht => key (fun h => hne (by rw [h])) ht⟩

/-- A word with the sign of a number and its rounded magnitude. -/
theorem word_rounded {r : ℚ} {w : BitVec 32} {s : Bool} (hw : w.toNat = (if s then 2 ^ 31 else 0) +
    min inf32 (encMag 23 (-149) |r|)) (h1 : r < 0 → s = true) (h2 : 0 < r → s = false) : Rounded32 r w := by
  have ha := abs_nonneg r
  have hle := min_le_left inf32 (encMag 23 (-149) |r|)
  have hmag : w.toNat % 2 ^ 31 = min inf32 (encMag 23 (-149) |r|) := by
    rw [hw]
    simp only [inf32] at hle ⊢
    split_ifs <;> omega
  have hsgn : sgn32 w = s := by
    unfold sgn32
    rw [hw]
    simp only [inf32] at hle ⊢
    cases s <;> simp
  have hr : r = (if s then -1 else 1) * |r| := by
    rcases lt_trichotomy r 0 with h | h | h
    · rw [h1 h, abs_of_neg h]; simp
    · subst h; simp
    · rw [h2 h, abs_of_pos h]; simp
  have hov : Special32 w ↔ (2 ^ 128 - 2 ^ 103 : ℚ) ≤ |r| := by
    rw [special32_iff, hmag, ← encMag_inf ha]
    omega
  have hval : ¬ Special32 w → encMag 23 (-149) |r| = w.toNat % 2 ^ 31 ∧
      val32 w = (if s then -1 else 1) * rndMag 23 (-149) |r| := by
    intro h
    rw [hov, ← encMag_inf ha, not_le] at h
    have e : w.toNat % 2 ^ 31 = encMag 23 (-149) |r| := by rw [hmag]; omega
    exact ⟨e.symm, by rw [val32_eq, hsgn, e, dec_enc 23 (-149) ha]⟩
  refine ⟨hov, ?_, ?_, ?_, ?_⟩
  · intro h
    rw [hov] at h
    have hne : r ≠ 0 := by
      rintro rfl
      norm_num at h
    rw [← encMag_inf ha] at h
    have e : min inf32 (encMag 23 (-149) |r|) = inf32 := by omega
    apply BitVec.eq_of_toNat_eq
    rw [hw, e]
    rcases lt_or_gt_of_ne hne with h | h
    · rw [if_pos h, h1 h]
      rfl
    · rw [h2 h, if_neg (not_lt.2 h.le)]
      rfl
  · have hm : w.msb = s := by
      rw [BitVec.msb_eq_decide, ← hsgn]
      rfl
    rw [hm]
    exact ⟨h1, h2⟩
  · intro h z _
    rw [(hval h).2, val32_eq z]
    have := (signed_nearest32 ha s (sgn32 z) (z.toNat % 2 ^ 31)).1
    rwa [← hr] at this
  · intro h z _ hne ht
    rw [(hval h).2, val32_eq z] at hne ht
    have := (signed_nearest32 ha s (sgn32 z) (z.toNat % 2 ^ 31)).2
    rw [← hr] at this
    have := this hne ht
    rw [(hval h).1] at this
    omega

theorem val32_form {w : BitVec 32} (h : ¬ Special32 w) : ∃ (a e : ℤ), |a| ≤ 2 ^ 24 ∧ -149 ≤ e ∧
    val32 w = a * 2 ^ e ∧ |val32 w| < 2 ^ (128 : ℤ) := by
  rw [special32_iff, not_le] at h
  obtain ⟨m, e, hm, he, hv, -⟩ := decMag_form 23 (-149) (w.toNat % 2 ^ 31)
  have hlt := decMag_lt 23 (-149) (w.toNat % 2 ^ 31) 254 (by simp only [inf32] at h; omega) (by norm_num)
  have hnn := decMag_nonneg 23 (-149) (w.toNat % 2 ^ 31)
  have hm' : (m : ℤ) ≤ 2 ^ 24 := by exact_mod_cast hm.le
  have e1 : (-149 : ℤ) + (254 : ℕ) + (23 : ℕ) = 128 := by norm_num
  rw [e1] at hlt
  rw [val32_eq]
  cases sgn32 w
  · rw [if_neg (by simp), one_mul, abs_of_nonneg hnn]
    exact ⟨m, e, by rw [abs_of_nonneg (by positivity)]; exact hm', he, hv, hlt⟩
  · rw [if_pos rfl, neg_one_mul, abs_neg, abs_of_nonneg hnn]
    exact ⟨-m, e, by rw [abs_neg, abs_of_nonneg (by positivity)]; exact hm', he, by rw [hv]; push_cast; ring, hlt⟩

theorem single_sum {x t : F64} (hx : IsSingle x) (ht : IsSingle t) :
    Rounded32 (x.value + t.value) (packF (F64.add x t)) := by
  obtain ⟨fx, u, hu, xu⟩ := hx
  obtain ⟨ft, v, hv, tv⟩ := ht
  obtain ⟨a, e, ha, he, ua, hub⟩ := val32_form hu
  obtain ⟨b, f, hb, hf, vb, hvb⟩ := val32_form hv
  have hadd : F64.add x t = F64.ofRat (x.neg && t.neg) (x.value + t.value) := by
    simp only [F64.isFin, decide_eq_true_eq] at fx ft
    unfold F64.add F64.nanOr F64.isNaN F64.isInf
    simp only [decide_eq_true_eq]
    rw [if_neg (by omega), if_neg (by omega), if_neg (by omega), if_neg (by omega), toRat_eq, toRat_eq]
  have hsum : x.value + t.value = a * 2 ^ e + b * 2 ^ f := by rw [xu, tv, ua, vb]
  have twice : encMag 23 (-149) (rndMag 52 (-1074) |x.value + t.value|) =
      encMag 23 (-149) |x.value + t.value| := by
    rcases le_total f e with h | h
    · exact sum_twice ha hb hf h (by rw [hsum])
    · exact sum_twice hb ha he h (by rw [hsum, add_comm])
  have hsmall : |x.value + t.value| < 2 ^ (129 : ℤ) := by
    rw [← xu] at hub
    rw [← tv] at hvb
    have h1 := abs_add_le x.value t.value
    have h2 : (2 : ℚ) ^ (129 : ℤ) = 2 ^ (128 : ℤ) + 2 ^ (128 : ℤ) := by norm_num
    rw [h2]
    linarith
  generalize x.value + t.value = r at *
  obtain ⟨s, hs, h1, h2, -⟩ := ofRat_form (x.neg && t.neg) r
  have hnn := abs_nonneg r
  have hle := encMag_le 52 (-1074) hnn 129 (by norm_num) hsmall
  have hlt : encMag 52 (-1074) |r| < inf64 := by
    simp only [inf64]
    norm_num at hle
    omega
  have hm : (F64.mk' s (min inf64 (encMag 52 (-1074) |r|))).mag = encMag 52 (-1074) |r| := by
    rw [F64.mk'_mag (min_le_left _ _)]
    omega
  refine word_rounded (s := s) ?_ h1 h2
  rw [hadd, hs, packF_toNat, hm]
  congr 1
  unfold packMag
  rw [if_pos hlt, dec_enc 52 (-1074) hnn, twice]

end Bf2
