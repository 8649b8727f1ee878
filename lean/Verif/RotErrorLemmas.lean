import Verif.RotErrorSpec
import Verif.RotateLemmas
import Verif.RepoTestsFloat
import Verif.Exact
import Mathlib.Tactic.Positivity
import Mathlib.Tactic.Linarith

/-! # Rounding errors of the rotations -/

namespace Bf2

/-! ## One rounding -/

theorem ulp_near {r : ℚ} (h : 0 ≤ r) (hb : r ≤ 2 ^ 1020) :
    ∃ n k : ℤ, |n| ≤ 2 ^ 53 ∧ -1074 ≤ k ∧ k ≤ 970 ∧
      |r - n * 2 ^ k| ≤ r * 2 ^ (-53 : ℤ) + 2 ^ (-1075 : ℤ) := by
  obtain ⟨h0, h1, he, -⟩ := mant_bounds 52 (-1074) h
  have hp := two_zpow_pos (ulpExp 52 (-1074) r)
  refine ⟨rne (r / 2 ^ ulpExp 52 (-1074) r), ulpExp 52 (-1074) r, by rw [abs_of_nonneg h0]; exact h1,
    he, ?_, ?_⟩
  · unfold ulpExp
    split
    · norm_num
    · rename_i hr
      have hr' : 0 < r := lt_of_le_of_ne h (Ne.symm hr)
      have hl := (log_spec hr').1
      have : (2 : ℚ) ^ Int.log 2 r ≤ 2 ^ ((1020 : ℕ) : ℤ) := by
        rw [zpow_natCast]; exact hl.trans hb
      have := (zpow_le_zpow_iff_right₀ (by norm_num : (1 : ℚ) < 2)).1 this
      simp only [max_le_iff]
      omega
  · have hn := rne_near (r / 2 ^ ulpExp 52 (-1074) r)
    have e1 : r - (rne (r / 2 ^ ulpExp 52 (-1074) r) : ℚ) * 2 ^ ulpExp 52 (-1074) r =
        (r / 2 ^ ulpExp 52 (-1074) r - rne (r / 2 ^ ulpExp 52 (-1074) r)) *
          2 ^ ulpExp 52 (-1074) r := by
      rw [sub_mul, div_mul_cancel₀ _ hp.ne']
    rw [e1, abs_mul, abs_of_pos hp]
    refine (mul_le_mul_of_nonneg_right hn hp.le).trans ?_
    have hs : (2 : ℚ) ^ ulpExp 52 (-1074) r ≤ r * 2 ^ (-52 : ℤ) + 2 ^ (-1074 : ℤ) := by
      have hq := two_zpow_pos (-52)
      have hq' := two_zpow_pos (-1074)
      unfold ulpExp
      split
      · rename_i hr; rw [hr, zero_mul, zero_add]
      · rename_i hr
        have hr' : 0 < r := lt_of_le_of_ne h (Ne.symm hr)
        have hl := (log_spec hr').1
        rcases max_choice (-1074) (Int.log 2 r - ((52 : ℕ) : ℤ)) with hm | hm <;> rw [hm]
        · have := mul_nonneg h hq.le
          linarith
        · have : (2 : ℚ) ^ (Int.log 2 r - ((52 : ℕ) : ℤ)) = 2 ^ Int.log 2 r * 2 ^ (-52 : ℤ) := by
            rw [← zpow_add₀ (by norm_num : (2 : ℚ) ≠ 0)]; congr 1
          rw [this]
          have := mul_le_mul_of_nonneg_right hl hq.le
          linarith
    have e53 : (2 : ℚ) ^ (-53 : ℤ) = 2 ^ (-52 : ℤ) / 2 := by
      rw [show (-53 : ℤ) = -52 - 1 by norm_num, zpow_sub_one₀ (by norm_num : (2 : ℚ) ≠ 0)]; rfl
    have e1075 : (2 : ℚ) ^ (-1075 : ℤ) = 2 ^ (-1074 : ℤ) / 2 := by
      rw [show (-1075 : ℤ) = -1074 - 1 by norm_num, zpow_sub_one₀ (by norm_num : (2 : ℚ) ≠ 0)]; rfl
    rw [e53, e1075]
    generalize (2 : ℚ) ^ ulpExp 52 (-1074) r = t at *
    generalize (2 : ℚ) ^ (-52 : ℤ) = a at *
    generalize (2 : ℚ) ^ (-1074 : ℤ) = b at *
    linarith

/-- A correctly rounded number that is not enormous is finite and off by at most half a unit. -/
theorem Rounded.error {r : ℚ} {y : F64} (h : Rounded r y) (hb : |r| ≤ 2 ^ 1020) :
    y.isFin = true ∧ |r - y.value| ≤ |r| * 2 ^ (-53 : ℤ) + 2 ^ (-1075 : ℤ) := by
  have hf : y.isFin = true := by
    have h1 := h.notNaN
    have h2 : ¬ y.isInf = true := by
      rw [h.overflow]
      intro hc
      have : (2 ^ 1024 - 2 ^ 970 : ℚ) ≤ 2 ^ 1020 := hc.trans hb
      have e1 : (2 : ℚ) ^ 1024 = 2 ^ 970 * 2 ^ 54 := by rw [← pow_add]
      have e2 : (2 : ℚ) ^ 1020 = 2 ^ 970 * 2 ^ 50 := by rw [← pow_add]
      have hp : (0 : ℚ) < 2 ^ 970 := by positivity
      rw [e1, e2] at this
      clear e1 e2 hc hb
      generalize (2 : ℚ) ^ 970 = t at *
      norm_num at this
      linarith
    simp only [F64.isNaN, F64.isInf, F64.isFin, decide_eq_true_eq, decide_eq_false_iff_not] at *
    omega
  refine ⟨hf, ?_⟩
  obtain ⟨n, k, hn, hk, hk', herr⟩ := ulp_near (abs_nonneg r) hb
  rcases abs_cases r with ⟨ha, _⟩ | ⟨ha, _⟩
  · obtain ⟨z, hz, hv⟩ := exists_double hn hk hk' rfl
    refine (h.nearest hf z hz).trans ?_
    rw [hv]
    rw [ha] at herr ⊢
    exact herr
  · obtain ⟨z, hz, hv⟩ := exists_double (n := -n) (by rwa [abs_neg]) hk hk' rfl
    refine (h.nearest hf z hz).trans ?_
    rw [hv, show r - ((-n : ℤ) : ℚ) * 2 ^ k = -(-r - n * 2 ^ k) by push_cast; ring, abs_neg]
    rw [ha] at herr ⊢
    exact herr

/-- The unit of rounding. -/
noncomputable def uR : ℝ := 2 ^ (-53 : ℤ)
/-- Half the smallest double. -/
noncomputable def etaR : ℝ := 2 ^ (-1075 : ℤ)

theorem Rounded.real_error {r : ℚ} {y : F64} (h : Rounded r y) {B : ℝ} (hB : |(r : ℝ)| ≤ B)
    (hb : B ≤ 2 ^ 1020) :
    y.isFin = true ∧ |(y.value : ℝ) - r| ≤ B * uR + etaR := by
  have hq : |r| ≤ 2 ^ 1020 := by exact_mod_cast hB.trans hb
  obtain ⟨hf, he⟩ := h.error hq
  refine ⟨hf, ?_⟩
  have : |(r : ℝ) - y.value| ≤ |(r : ℝ)| * 2 ^ (-53 : ℤ) + 2 ^ (-1075 : ℤ) := by
    have := (Rat.cast_le (K := ℝ)).2 he
    simpa only [Rat.cast_abs, Rat.cast_sub, Rat.cast_add, Rat.cast_mul, Rat.cast_zpow,
      Rat.cast_ofNat] using this
  rw [abs_sub_comm]
  refine this.trans ?_
  have hu : (0 : ℝ) ≤ 2 ^ (-53 : ℤ) := by positivity
  have := mul_le_mul_of_nonneg_right hB hu
  unfold uR etaR
  linarith

/-! ## One turn in a plane -/

/-- `x̃ c - ỹ s` or `x̃ s + ỹ c` with rounded operations and inexact operands. -/
theorem turn_error {a b : F64} {A B C S ρ δ ε : ℝ} {c s : F64} (fa : a.isFin = true)
    (fb : b.isFin = true) (fc : c.isFin = true) (fs : s.isFin = true)
    (hc : |(c.value : ℝ)| ≤ 1) (hs : |(s.value : ℝ)| ≤ 1)
    (hC : |(c.value : ℝ) - C| ≤ ε) (hS : |(s.value : ℝ) - S| ≤ ε)
    (hA : |A| ≤ ρ) (hB : |B| ≤ ρ) (ha : |(a.value : ℝ) - A| ≤ δ) (hb : |(b.value : ℝ) - B| ≤ δ)
    (hρ : ρ + δ ≤ 2 ^ 1010) :
    ((F64.sub (F64.mul a c) (F64.mul b s)).isFin = true ∧
      |((F64.sub (F64.mul a c) (F64.mul b s)).value : ℝ) - (A * C - B * S)| ≤
        2 * δ + 2 * (ρ * ε) + 5 * uR * (ρ + δ) + 4 * etaR) ∧
    ((F64.add (F64.mul a c) (F64.mul b s)).isFin = true ∧
      |((F64.add (F64.mul a c) (F64.mul b s)).value : ℝ) - (A * C + B * S)| ≤
        2 * δ + 2 * (ρ * ε) + 5 * uR * (ρ + δ) + 4 * etaR) := by
  have hρ0 : 0 ≤ ρ := (abs_nonneg _).trans hA
  have hδ0 : 0 ≤ δ := (abs_nonneg _).trans ha
  have hε0 : 0 ≤ ε := (abs_nonneg _).trans hC
  have hu0 : (0 : ℝ) < uR := by unfold uR; positivity
  have hu1 : uR ≤ 1 / 100 := by unfold uR; norm_num
  have he0 : (0 : ℝ) < etaR := by unfold etaR; positivity
  have he1 : etaR ≤ 1 / 100 := by
    have : etaR ≤ 2 ^ (-7 : ℤ) := zpow_le_zpow_right₀ (by norm_num) (by norm_num)
    refine this.trans (by norm_num)
  have size : ∀ {x : F64} {X : ℝ}, |X| ≤ ρ → |(x.value : ℝ) - X| ≤ δ → |(x.value : ℝ)| ≤ ρ + δ := by
    intro x X h1 h2
    have := abs_add_le ((x.value : ℝ) - X) X
    rw [sub_add_cancel] at this
    linarith
  have prod : ∀ {x t : F64} {X T : ℝ}, x.isFin = true → t.isFin = true → |(t.value : ℝ)| ≤ 1 →
      |(t.value : ℝ) - T| ≤ ε → |X| ≤ ρ → |(x.value : ℝ) - X| ≤ δ →
      (F64.mul x t).isFin = true ∧ |((F64.mul x t).value : ℝ)| ≤ (ρ + δ) + ((ρ + δ) * uR + etaR) ∧
      |((F64.mul x t).value : ℝ) - X * T| ≤ δ + ρ * ε + ((ρ + δ) * uR + etaR) := by
    intro x t X T fx ft ht hT hX hx
    have hsz := size hX hx
    have hm : |((x.value * t.value : ℚ) : ℝ)| ≤ ρ + δ := by
      push_cast
      rw [abs_mul]
      calc _ ≤ (ρ + δ) * 1 := mul_le_mul hsz ht (abs_nonneg _) (by linarith)
        _ = _ := mul_one _
    obtain ⟨hf, he⟩ := (mul_rounded fx ft).real_error hm (hρ.trans (by
      exact pow_le_pow_right₀ (by norm_num) (by norm_num)))
    push_cast at he hm
    refine ⟨hf, ?_, ?_⟩
    · have := abs_add_le (((F64.mul x t).value : ℝ) - x.value * t.value) (x.value * t.value)
      rw [sub_add_cancel] at this
      linarith
    · have h1 : |(x.value : ℝ) * t.value - X * T| ≤ δ + ρ * ε := by
        have : (x.value : ℝ) * t.value - X * T = (x.value - X) * t.value + X * (t.value - T) := by ring
        rw [this]
        refine (abs_add_le _ _).trans (add_le_add ?_ ?_)
        · rw [abs_mul]
          calc _ ≤ δ * 1 := mul_le_mul hx ht (abs_nonneg _) hδ0
            _ = _ := mul_one _
        · rw [abs_mul]
          exact mul_le_mul hX hT (abs_nonneg _) hρ0
      have := abs_add_le (((F64.mul x t).value : ℝ) - x.value * t.value)
        ((x.value : ℝ) * t.value - X * T)
      rw [sub_add_sub_cancel] at this
      linarith
  obtain ⟨f1, m1, d1⟩ := prod fa fc hc hC hA ha
  obtain ⟨f2, m2, d2⟩ := prod fb fs hs hS hB hb
  have hbig : 2 * ((ρ + δ) + ((ρ + δ) * uR + etaR)) ≤ 2 ^ 1020 := by
    have h1 : (ρ + δ) * uR ≤ (ρ + δ) * 1 :=
      mul_le_mul_of_nonneg_left (by linarith) (by linarith)
    have e : (2 : ℝ) ^ 1020 = 2 ^ 1010 * 1024 := by
      rw [show (1024 : ℝ) = 2 ^ 10 by norm_num, ← pow_add]
    have one : (1 : ℝ) ≤ 2 ^ 1010 := one_le_pow₀ (by norm_num)
    rw [e]
    clear e
    generalize (2 : ℝ) ^ 1010 = t at *
    linarith
  have final : ∀ {q : ℝ}, q ≤ δ + ρ * ε + ((ρ + δ) * uR + etaR) + (δ + ρ * ε + ((ρ + δ) * uR + etaR)) +
      (2 * ((ρ + δ) + ((ρ + δ) * uR + etaR)) * uR + etaR) →
      q ≤ 2 * δ + 2 * (ρ * ε) + 5 * uR * (ρ + δ) + 4 * etaR := by
    intro q hq
    have h1 : ((ρ + δ) * uR) * uR ≤ ((ρ + δ) * uR) * (1 / 100) :=
      mul_le_mul_of_nonneg_left hu1 (mul_nonneg (by linarith) hu0.le)
    have h2 : etaR * uR ≤ etaR * (1 / 100) := mul_le_mul_of_nonneg_left hu1 he0.le
    have h3 : 0 ≤ (ρ + δ) * uR := mul_nonneg (by linarith) hu0.le
    have e1 : 2 * ((ρ + δ) + ((ρ + δ) * uR + etaR)) * uR =
        2 * ((ρ + δ) * uR) + 2 * (((ρ + δ) * uR) * uR) + 2 * (etaR * uR) := by ring
    have e2 : 5 * uR * (ρ + δ) = 5 * ((ρ + δ) * uR) := by ring
    rw [e1] at hq
    rw [e2]
    linarith
  constructor
  · have hm : |((((F64.mul a c).value - (F64.mul b s).value : ℚ)) : ℝ)| ≤
        2 * ((ρ + δ) + ((ρ + δ) * uR + etaR)) := by
      push_cast
      refine (abs_sub _ _).trans ?_
      linarith
    obtain ⟨hf, he⟩ := (sub_rounded f1 f2).real_error hm hbig
    refine ⟨hf, final ?_⟩
    push_cast at he
    have t1 := abs_add_le ((((F64.sub (F64.mul a c) (F64.mul b s)).value : ℝ)) -
      (((F64.mul a c).value : ℝ) - ((F64.mul b s).value : ℝ)))
      ((((F64.mul a c).value : ℝ) - ((F64.mul b s).value : ℝ)) - (A * C - B * S))
    rw [sub_add_sub_cancel] at t1
    have t2 : |(((F64.mul a c).value : ℝ) - ((F64.mul b s).value : ℝ)) - (A * C - B * S)| ≤
        δ + ρ * ε + ((ρ + δ) * uR + etaR) + (δ + ρ * ε + ((ρ + δ) * uR + etaR)) := by
      have : (((F64.mul a c).value : ℝ) - ((F64.mul b s).value : ℝ)) - (A * C - B * S) =
        (((F64.mul a c).value : ℝ) - A * C) - (((F64.mul b s).value : ℝ) - B * S) := by ring
      rw [this]
      exact (abs_sub _ _).trans (add_le_add d1 d2)
    linarith
  · have hm : |((((F64.mul a c).value + (F64.mul b s).value : ℚ)) : ℝ)| ≤
        2 * ((ρ + δ) + ((ρ + δ) * uR + etaR)) := by
      push_cast
      refine (abs_add_le _ _).trans ?_
      linarith
    obtain ⟨hf, he⟩ := (add_rounded f1 f2).real_error hm hbig
    refine ⟨hf, final ?_⟩
    push_cast at he
    have t1 := abs_add_le ((((F64.add (F64.mul a c) (F64.mul b s)).value : ℝ)) -
      (((F64.mul a c).value : ℝ) + ((F64.mul b s).value : ℝ)))
      ((((F64.mul a c).value : ℝ) + ((F64.mul b s).value : ℝ)) - (A * C + B * S))
    rw [sub_add_sub_cancel] at t1
    have t2 : |(((F64.mul a c).value : ℝ) + ((F64.mul b s).value : ℝ)) - (A * C + B * S)| ≤
        δ + ρ * ε + ((ρ + δ) * uR + etaR) + (δ + ρ * ε + ((ρ + δ) * uR + etaR)) := by
      have : (((F64.mul a c).value : ℝ) + ((F64.mul b s).value : ℝ)) - (A * C + B * S) =
        (((F64.mul a c).value : ℝ) - A * C) + (((F64.mul b s).value : ℝ) - B * S) := by ring
      rw [this]
      exact (abs_add_le _ _).trans (add_le_add d1 d2)
    linarith

/-! ## Three turns -/

/-- Doubles `c`, `s` near the cosine and sine `C`, `S` of an angle. -/
structure NearCS (ε : ℝ) (c s : F64) (C S : ℝ) : Prop where
  fc : c.isFin = true
  fs : s.isFin = true
  hc : |(c.value : ℝ)| ≤ 1
  hs : |(s.value : ℝ)| ≤ 1
  hC : |(c.value : ℝ) - C| ≤ ε
  hS : |(s.value : ℝ) - S| ≤ ε
  one : C ^ 2 + S ^ 2 = 1

/-- A vector of doubles within `δ` of a real vector, in every component. -/
structure NearVec (δ : ℝ) (v : Vec3 F64) (V : Vec3 ℝ) : Prop where
  fin : v.Finite
  x : |(v.x.value : ℝ) - V.x| ≤ δ
  y : |(v.y.value : ℝ) - V.y| ≤ δ
  z : |(v.z.value : ℝ) - V.z| ≤ δ

/-- Squared length. -/
def sq (V : Vec3 ℝ) : ℝ := V.x ^ 2 + V.y ^ 2 + V.z ^ 2

/-- The error after one more turn. -/
noncomputable def grow (ρ ε δ : ℝ) : ℝ := 2 * δ + 2 * (ρ * ε) + 5 * uR * (ρ + δ) + 4 * etaR

theorem uR_pos : 0 < uR := by unfold uR; positivity
theorem uR_le : uR ≤ 1 / 1000 := by unfold uR; norm_num
theorem etaR_pos : 0 < etaR := by unfold etaR; positivity
theorem etaR_le : etaR ≤ 1 / 100 := by
  have : etaR ≤ 2 ^ (-7 : ℤ) := zpow_le_zpow_right₀ (by norm_num) (by norm_num)
  refine this.trans (by norm_num)

theorem le_grow {ρ ε δ : ℝ} (hρ : 0 ≤ ρ) (hε : 0 ≤ ε) (hδ : 0 ≤ δ) : δ ≤ grow ρ ε δ := by
  have h1 := mul_nonneg hρ hε
  have h2 := mul_nonneg uR_pos.le (add_nonneg hρ hδ)
  have h3 := etaR_pos
  have e : 5 * uR * (ρ + δ) = 5 * (uR * (ρ + δ)) := by ring
  unfold grow
  rw [e]
  linarith

theorem comp_le {V : Vec3 ℝ} {ρ : ℝ} (h0 : 0 ≤ ρ) (h : sq V ≤ ρ ^ 2) :
    |V.x| ≤ ρ ∧ |V.y| ≤ ρ ∧ |V.z| ≤ ρ := by
  unfold sq at h
  refine ⟨abs_le_of_sq_le_sq ?_ h0, abs_le_of_sq_le_sq ?_ h0, abs_le_of_sq_le_sq ?_ h0⟩ <;>
    nlinarith [sq_nonneg V.x, sq_nonneg V.y, sq_nonneg V.z]

theorem sq_roll {V : Vec3 ℝ} {C S : ℝ} (h : C ^ 2 + S ^ 2 = 1) : sq (rotRoll V C S) = sq V := by
  simp only [sq, rotRoll, add_real, sub_real, mul_real]
  linear_combination (V.x ^ 2 + V.y ^ 2) * h

theorem sq_pitch {V : Vec3 ℝ} {C S : ℝ} (h : C ^ 2 + S ^ 2 = 1) : sq (rotPitch V C S) = sq V := by
  simp only [sq, rotPitch, add_real, sub_real, mul_real]
  linear_combination (V.y ^ 2 + V.z ^ 2) * h

theorem sq_yaw {V : Vec3 ℝ} {C S : ℝ} (h : C ^ 2 + S ^ 2 = 1) : sq (rotYaw V C S) = sq V := by
  simp only [sq, rotYaw, add_real, sub_real, mul_real]
  linear_combination (V.x ^ 2 + V.z ^ 2) * h

section
variable {ρ δ ε : ℝ} {v : Vec3 F64} {V : Vec3 ℝ} {c s : F64} {C S : ℝ}

theorem near_roll (h0 : 0 ≤ ρ) (hV : sq V ≤ ρ ^ 2) (hb : ρ + δ ≤ 2 ^ 1010) (hn : NearVec δ v V)
    (h : NearCS ε c s C S) : NearVec (grow ρ ε δ) (rotRoll v c s) (rotRoll V C S) := by
  obtain ⟨hx, hy, hz⟩ := comp_le h0 hV
  have t1 := (turn_error hn.fin.1 hn.fin.2.1 h.fc h.fs h.hc h.hs h.hC h.hS hx hy hn.x hn.y hb).1
  have t2 := (turn_error hn.fin.1 hn.fin.2.1 h.fs h.fc h.hs h.hc h.hS h.hC hx hy hn.x hn.y hb).2
  exact ⟨⟨t1.1, t2.1, hn.fin.2.2⟩, t1.2, t2.2, hn.z.trans
    (le_grow h0 ((abs_nonneg _).trans h.hC) ((abs_nonneg _).trans hn.x))⟩

theorem near_pitch (h0 : 0 ≤ ρ) (hV : sq V ≤ ρ ^ 2) (hb : ρ + δ ≤ 2 ^ 1010) (hn : NearVec δ v V)
    (h : NearCS ε c s C S) : NearVec (grow ρ ε δ) (rotPitch v c s) (rotPitch V C S) := by
  obtain ⟨hx, hy, hz⟩ := comp_le h0 hV
  have t1 := (turn_error hn.fin.2.1 hn.fin.2.2 h.fc h.fs h.hc h.hs h.hC h.hS hy hz hn.y hn.z hb).1
  have t2 := (turn_error hn.fin.2.1 hn.fin.2.2 h.fs h.fc h.hs h.hc h.hS h.hC hy hz hn.y hn.z hb).2
  exact ⟨⟨hn.fin.1, t1.1, t2.1⟩, hn.x.trans
    (le_grow h0 ((abs_nonneg _).trans h.hC) ((abs_nonneg _).trans hn.x)), t1.2, t2.2⟩

theorem near_yaw (h0 : 0 ≤ ρ) (hV : sq V ≤ ρ ^ 2) (hb : ρ + δ ≤ 2 ^ 1010) (hn : NearVec δ v V)
    (h : NearCS ε c s C S) : NearVec (grow ρ ε δ) (rotYaw v c s) (rotYaw V C S) := by
  obtain ⟨hx, hy, hz⟩ := comp_le h0 hV
  have t1 := (turn_error hn.fin.1 hn.fin.2.2 h.fc h.fs h.hc h.hs h.hC h.hS hx hz hn.x hn.z hb).2
  have t2 := (turn_error hn.fin.2.2 hn.fin.1 h.fc h.fs h.hc h.hs h.hC h.hS hz hx hn.z hn.x hb).1
  exact ⟨⟨t1.1, hn.fin.2.1, t2.1⟩, t1.2, hn.y.trans
    (le_grow h0 ((abs_nonneg _).trans h.hC) ((abs_nonneg _).trans hn.x)), t2.2⟩

end

theorem grow3 {ρ ε : ℝ} (h0 : 0 ≤ ρ) (hε : 0 ≤ ε) :
    grow ρ ε (grow ρ ε (grow ρ ε 0)) ≤ 15 * (ρ * ε) + 36 * (ρ * uR) + 30 * etaR := by
  have hu := uR_pos
  have hu1 := uR_le
  have he := etaR_pos
  have h1 : 0 ≤ ρ * ε := mul_nonneg h0 hε
  have h2 : 0 ≤ ρ * uR := mul_nonneg h0 hu.le
  have e1 : grow ρ ε 0 = 2 * (ρ * ε) + 5 * (ρ * uR) + 4 * etaR := by unfold grow; ring
  have g0 : 0 ≤ grow ρ ε 0 := by rw [e1]; linarith
  have e2 : grow ρ ε (grow ρ ε (grow ρ ε 0)) = 7 * grow ρ ε 0 + 25 * (uR * grow ρ ε 0) +
      25 * (uR * (uR * grow ρ ε 0)) := by
    rw [e1]; unfold grow; ring
  have b1 : uR * grow ρ ε 0 ≤ 1 / 1000 * grow ρ ε 0 := mul_le_mul_of_nonneg_right hu1 g0
  have b2 : uR * (uR * grow ρ ε 0) ≤ 1 / 1000 * (uR * grow ρ ε 0) :=
    mul_le_mul_of_nonneg_right hu1 (mul_nonneg hu.le g0)
  rw [e2]
  rw [e1] at *
  linarith

theorem rotMap_error {ρ ε : ℝ} {v : Vec3 F64} {cy sy cp sp cr sr : F64} {Cy Sy Cp Sp Cr Sr : ℝ}
    (h0 : 0 ≤ ρ) (hρ : ρ ≤ 2 ^ 1000) (hε : ε ≤ 1) (hv : v.Finite) (hV : sq v.real ≤ ρ ^ 2)
    (hy : NearCS ε cy sy Cy Sy) (hp : NearCS ε cp sp Cp Sp) (hr : NearCS ε cr sr Cr Sr) :
    NearVec (15 * (ρ * ε) + 36 * (ρ * uR) + 30 * etaR) (rotMap cy sy cp sp cr sr v)
      (rotMap Cy Sy Cp Sp Cr Sr v.real) := by
  have hε0 : 0 ≤ ε := (abs_nonneg _).trans hy.hC
  have n0 : NearVec 0 v v.real := ⟨hv, by simp [Vec3.real], by simp [Vec3.real], by simp [Vec3.real]⟩
  have g1 := le_grow h0 hε0 le_rfl
  have g2 := le_grow h0 hε0 g1
  have g3 := le_grow h0 hε0 (g1.trans g2)
  have top : ρ + (15 * (ρ * ε) + 36 * (ρ * uR) + 30 * etaR) ≤ 2 ^ 1010 := by
    have b1 : ρ * ε ≤ ρ * 1 := mul_le_mul_of_nonneg_left hε h0
    have b2 : ρ * uR ≤ ρ * 1 := mul_le_mul_of_nonneg_left (by linarith [uR_le]) h0
    have b3 := etaR_le
    have e : (2 : ℝ) ^ 1010 = 2 ^ 1000 * 1024 := by
      rw [show (1024 : ℝ) = 2 ^ 10 by norm_num, ← pow_add]
    have one : (1 : ℝ) ≤ 2 ^ 1000 := one_le_pow₀ (by norm_num)
    rw [e]
    clear e
    generalize (2 : ℝ) ^ 1000 = t at *
    linarith
  have b3 := grow3 h0 hε0
  have low : ∀ {d : ℝ}, d ≤ 15 * (ρ * ε) + 36 * (ρ * uR) + 30 * etaR → ρ + d ≤ 2 ^ 1010 :=
    fun hd => (add_le_add le_rfl hd).trans top
  have n1 := near_roll h0 hV (low ((g1.trans g2).trans (g3.trans b3))) n0 hr
  have n2 := near_pitch h0 (by rwa [sq_roll hr.one]) (low (g2.trans (g3.trans b3))) n1 hp
  have n3 := near_yaw h0 (by rwa [sq_pitch hp.one, sq_roll hr.one]) (low (g3.trans b3)) n2 hy
  exact ⟨n3.fin, n3.x.trans b3, n3.y.trans b3, n3.z.trans b3⟩

end Bf2

namespace Bf2

/-! ## Lengths -/

theorem len_nonneg (V : Vec3 ℝ) : 0 ≤ V.len := Real.sqrt_nonneg _

theorem len_sq (V : Vec3 ℝ) : V.len ^ 2 = sq V :=
  Real.sq_sqrt (by positivity)

theorem len_le_of_near {a b : Vec3 ℝ} {β : ℝ} (hx : |a.x - b.x| ≤ β) (hy : |a.y - b.y| ≤ β)
    (hz : |a.z - b.z| ≤ β) : a.len ≤ b.len + 2 * β := by
  have h0 : 0 ≤ β := (abs_nonneg _).trans hx
  have hb := len_nonneg b
  have part : ∀ p q : ℝ, |p - q| ≤ β → p ^ 2 ≤ q ^ 2 + 2 * (β * |q|) + β ^ 2 := by
    intro p q h
    have h1 : |p| ≤ |q| + β := by
      have := abs_add_le (p - q) q
      rw [sub_add_cancel] at this
      linarith
    have h2 : |p| ^ 2 ≤ (|q| + β) ^ 2 := pow_le_pow_left₀ (abs_nonneg _) h1 2
    rw [sq_abs] at h2
    have : (|q| + β) ^ 2 = |q| ^ 2 + 2 * (β * |q|) + β ^ 2 := by ring
    rw [this, sq_abs] at h2
    exact h2
  have hsum : |b.x| + |b.y| + |b.z| ≤ 2 * b.len := by
    apply le_of_sq_le_sq _ (by linarith)
    have e : (2 * b.len) ^ 2 = 4 * (|b.x| ^ 2 + |b.y| ^ 2 + |b.z| ^ 2) := by
      rw [mul_pow, len_sq, sq_abs, sq_abs, sq_abs]; unfold sq; ring
    rw [e]
    nlinarith [sq_nonneg (|b.x| - |b.y|), sq_nonneg (|b.y| - |b.z|), sq_nonneg (|b.z| - |b.x|),
      sq_nonneg |b.x|, sq_nonneg |b.y|, sq_nonneg |b.z|]
  apply le_of_sq_le_sq _ (by linarith)
  have e1 := len_sq a
  have e2 := len_sq b
  unfold sq at e1 e2
  have h3 := mul_le_mul_of_nonneg_left hsum h0
  rw [e1]
  have e3 : (b.len + 2 * β) ^ 2 = b.len ^ 2 + 4 * (β * b.len) + 4 * β ^ 2 := by ring
  rw [e3, e2]
  have := part _ _ hx
  have := part _ _ hy
  have := part _ _ hz
  have e4 : β * (|b.x| + |b.y| + |b.z|) = β * |b.x| + β * |b.y| + β * |b.z| := by ring
  rw [e4] at h3
  nlinarith [sq_nonneg β]

theorem len_rot {Cy Sy Cp Sp Cr Sr : ℝ} (hy : Cy ^ 2 + Sy ^ 2 = 1) (hp : Cp ^ 2 + Sp ^ 2 = 1)
    (hr : Cr ^ 2 + Sr ^ 2 = 1) (V : Vec3 ℝ) : (rotMap Cy Sy Cp Sp Cr Sr V).len = V.len := by
  have : sq (rotMap Cy Sy Cp Sp Cr Sr V) = sq V := by
    unfold rotMap
    rw [sq_yaw hy, sq_pitch hp, sq_roll hr]
  unfold Vec3.len
  unfold sq at this
  rw [this]

theorem rot_constants {ρ ε : ℝ} (h0 : 0 ≤ ρ) :
    15 * (ρ * ε) + 36 * (ρ * uR) + 30 * etaR ≤ (15 * ε + 2 ^ (-47 : ℤ)) * ρ + 2 ^ (-1070 : ℤ) := by
  have e1 : (2 : ℝ) ^ (-47 : ℤ) = 64 * uR := by
    unfold uR
    rw [show (64 : ℝ) = 2 ^ (6 : ℤ) by norm_num, ← zpow_add₀ (by norm_num : (2 : ℝ) ≠ 0)]; rfl
  have e2 : (2 : ℝ) ^ (-1070 : ℤ) = 32 * etaR := by
    unfold etaR
    rw [show (32 : ℝ) = 2 ^ (5 : ℤ) by norm_num, ← zpow_add₀ (by norm_num : (2 : ℝ) ≠ 0)]; rfl
  have h1 := mul_nonneg h0 uR_pos.le
  have h2 := etaR_pos
  rw [e1, e2]
  have e3 : (15 * ε + 64 * uR) * ρ = 15 * (ρ * ε) + 64 * (ρ * uR) := by ring
  rw [e3]
  linarith

/-! ## A library that is accurate -/

theorem exists_near_double {x : ℝ} (h : |x| ≤ 1) :
    ∃ z : F64, z.isFin = true ∧ |(z.value : ℝ)| ≤ 1 ∧ |(z.value : ℝ) - x| ≤ 2 ^ (-52 : ℤ) := by
  have hp : (0 : ℝ) < 2 ^ 52 := by positivity
  obtain ⟨hl, hu⟩ := abs_le.1 h
  have h1 := Int.floor_le (x * 2 ^ 52)
  have h2 := Int.lt_floor_add_one (x * 2 ^ 52)
  have a1 : -(2 ^ 52 : ℤ) ≤ ⌊x * 2 ^ 52⌋ := by
    rw [Int.le_floor]; push_cast; nlinarith
  have a2 : ⌊x * 2 ^ 52⌋ ≤ (2 ^ 52 : ℤ) := by
    have : (⌊x * 2 ^ 52⌋ : ℝ) ≤ 2 ^ 52 := by nlinarith
    exact_mod_cast this
  obtain ⟨z, hz, hv⟩ := exists_double (n := ⌊x * 2 ^ 52⌋) (k := -52)
    (by rw [abs_le]; constructor <;> linarith) (by norm_num) (by norm_num) rfl
  have hv' : (z.value : ℝ) = ⌊x * 2 ^ 52⌋ / 2 ^ 52 := by
    rw [hv]; push_cast; rw [zpow_neg]; rfl
  refine ⟨z, hz, ?_, ?_⟩
  · rw [hv', abs_div, abs_of_pos hp, div_le_one hp, abs_le]
    constructor
    · exact_mod_cast a1
    · exact_mod_cast a2
  · rw [hv', zpow_neg, abs_le]
    have e : (⌊x * 2 ^ 52⌋ : ℝ) / 2 ^ 52 - x = (⌊x * 2 ^ 52⌋ - x * 2 ^ 52) / 2 ^ 52 := by
      field_simp
    rw [e, show ((2 : ℝ) ^ (52 : ℤ))⁻¹ = 1 / 2 ^ 52 by rw [one_div]; rfl, ← neg_div]
    constructor
    · exact div_le_div_of_nonneg_right (by linarith) hp.le
    · exact div_le_div_of_nonneg_right (by linarith) hp.le

end Bf2

namespace Bf2

/-! ## Writing and reading back -/

theorem rndMag_error (p : ℕ) (emin : ℤ) {r : ℚ} (h : 0 ≤ r) :
    |r - rndMag p emin r| ≤ r * (2 ^ (-(p : ℤ)) / 2) + 2 ^ emin / 2 := by
  have hp := two_zpow_pos (ulpExp p emin r)
  have hn := rne_near (r / 2 ^ ulpExp p emin r)
  have e1 : r - rndMag p emin r =
      (r / 2 ^ ulpExp p emin r - rne (r / 2 ^ ulpExp p emin r)) * 2 ^ ulpExp p emin r := by
    unfold rndMag
    rw [sub_mul, div_mul_cancel₀ _ hp.ne']
  rw [e1, abs_mul, abs_of_pos hp]
  refine (mul_le_mul_of_nonneg_right hn hp.le).trans ?_
  have hs : (2 : ℚ) ^ ulpExp p emin r ≤ r * 2 ^ (-(p : ℤ)) + 2 ^ emin := by
    have hq := two_zpow_pos (-(p : ℤ))
    have hq' := two_zpow_pos emin
    unfold ulpExp
    split
    · rename_i hr; rw [hr, zero_mul, zero_add]
    · rename_i hr
      have hr' : 0 < r := lt_of_le_of_ne h (Ne.symm hr)
      have hl := (log_spec hr').1
      rcases max_choice emin (Int.log 2 r - (p : ℤ)) with hm | hm <;> rw [hm]
      · have := mul_nonneg h hq.le
        linarith
      · have : (2 : ℚ) ^ (Int.log 2 r - (p : ℤ)) = 2 ^ Int.log 2 r * 2 ^ (-(p : ℤ)) := by
          rw [← zpow_add₀ (by norm_num : (2 : ℚ) ≠ 0)]; congr 1
        rw [this]
        have := mul_le_mul_of_nonneg_right hl hq.le
        linarith
  generalize (2 : ℚ) ^ ulpExp p emin r = t at *
  generalize (2 : ℚ) ^ (-(p : ℤ)) = a at *
  generalize (2 : ℚ) ^ emin = b at *
  linarith

theorem pack_error {x : F64} (hf : x.isFin = true) (hb : |x.value| ≤ 2 ^ 127) :
    ¬ Special32 (packF x) ∧
      |x.value - val32 (packF x)| ≤ |x.value| * (2 ^ (-23 : ℤ) / 2) + 2 ^ (-149 : ℤ) / 2 := by
  simp only [F64.isFin, decide_eq_true_eq] at hf
  have hr := decMag_nonneg 52 (-1074) x.mag
  have ha : |x.value| = decMag 52 (-1074) x.mag := by
    rw [value_eq]; cases x.neg <;> simp [abs_of_nonneg hr]
  have hp : packMag x.mag = min inf32 (encMag 23 (-149) (decMag 52 (-1074) x.mag)) := by
    unfold packMag; rw [if_pos hf]
  have hs : ¬ Special32 (packF x) := by
    rw [special32_iff, packF_mag, hp, le_min_iff, encMag_inf hr, ← ha]
    rintro ⟨-, h⟩
    have := h.trans hb
    norm_num at this
  refine ⟨hs, ?_⟩
  obtain ⟨_, h2, _⟩ := packMag_fin hs
  have he := rndMag_error 23 (-149) hr
  rw [val32_eq, packF_sgn, packF_mag, h2, dec_enc 23 (-149) hr, ha, value_eq, ← mul_sub, abs_mul]
  have : |(if x.neg then -1 else 1 : ℚ)| = 1 := by cases x.neg <;> simp
  rw [this, one_mul]
  exact he

end Bf2
