import Verif.TurnSpec
import Verif.RotateLemmas
import Verif.RepoTestsFloat
import Verif.RotErrorSpec

/-! # Lemmas on turning by nothing -/

namespace Bf2

theorem keptZero_trans {x y z : F64} (h : KeptZero x y) (k : KeptZero y z) : KeptZero x z := by
  rcases h with rfl | ⟨rfl, rfl⟩
  · exact k
  · rcases k with rfl | ⟨h, _⟩
    · exact .inr ⟨rfl, rfl⟩
    · exact absurd h (by decide)

theorem keptZero_fin {x y : F64} (h : KeptZero x y) (hx : x.isFin = true) : y.isFin = true := by
  rcases h with rfl | ⟨rfl, rfl⟩
  · exact hx
  · decide

theorem f64_ext {x y : F64} (h : x.neg = y.neg) (k : x.mag = y.mag) : x = y := by
  cases x; cases y; simp only at h k; subst h; subst k; rfl

theorem fin_not_nan {x : F64} (h : x.isFin = true) : x.isNaN = false := by
  simp only [F64.isFin, F64.isNaN, decide_eq_true_eq, decide_eq_false_iff_not] at *; omega

theorem fin_not_inf {x : F64} (h : x.isFin = true) : x.isInf = false := by
  simp only [F64.isFin, F64.isInf, decide_eq_true_eq, decide_eq_false_iff_not] at *; omega

theorem zero_fin {x : F64} (h : x.mag = 0) : x.isFin = true := by
  simp only [F64.isFin, h]; decide

theorem value_zero {x : F64} (h : x.mag = 0) : x.value = 0 := by
  rw [value_eq, h]; simp [decMag]

theorem mk'_zero_mag (n : Bool) : (F64.mk' n 0).mag = 0 := rfl

theorem one_mag {c : F64} (hv : c.value = 1) : c.mag ≠ 0 ∧ c.neg = false := by
  have hd : 0 ≤ decMag 52 (-1074) c.mag := by unfold decMag; positivity
  constructor
  · intro h; rw [value_zero h] at hv; norm_num at hv
  · rcases Bool.eq_false_or_eq_true c.neg with h | h
    · rw [value_eq, h] at hv; simp only [if_true] at hv; linarith
    · exact h

/-- Multiplying by one. -/
theorem mul_one' {x c : F64} (hx : x.isFin = true) (hc : c.isFin = true) (hv : c.value = 1) :
    F64.mul x c = x := by
  obtain ⟨h0, hn⟩ := one_mag hv
  unfold F64.mul F64.nanOr
  rw [if_neg (by simp [fin_not_nan hx]), if_neg (by simp [fin_not_nan hc]),
    if_neg (by simp [fin_not_inf hx, fin_not_inf hc]), toRat_eq, toRat_eq, hv, mul_one, hn]
  by_cases h : x.mag = 0
  · rw [value_zero h]
    have : F64.ofRat (x.neg != false) 0 = F64.mk' (x.neg != false) 0 := by simp [F64.ofRat]
    rw [this]
    exact f64_ext (by simp [F64.mk']) (by rw [h]; rfl)
  · exact ofRat_value _ hx h

/-- Multiplying by a zero. -/
theorem mul_zero' {x s : F64} (hx : x.isFin = true) (hs : s.mag = 0) : (F64.mul x s).mag = 0 := by
  unfold F64.mul F64.nanOr
  rw [if_neg (by simp [fin_not_nan hx]), if_neg (by simp [fin_not_nan (zero_fin hs)]),
    if_neg (by simp [fin_not_inf hx, fin_not_inf (zero_fin hs)]), toRat_eq, toRat_eq,
    value_zero hs, mul_zero]
  simp [F64.ofRat, mk'_zero_mag]

theorem kept_of_zero {x y : F64} {b : Bool} (h : y = if x.mag = 0 then F64.mk' (x.neg && b) 0 else x) :
    KeptZero x y := by
  by_cases h0 : x.mag = 0
  · rw [if_pos h0] at h
    rcases Bool.eq_false_or_eq_true x.neg with hn | hn
    · cases b
      · exact .inr ⟨f64_ext hn h0, by rw [h, hn]; rfl⟩
      · exact .inl (by rw [h]; exact f64_ext (by rw [hn]; rfl) (by rw [h0]; rfl))
    · exact .inl (by rw [h]; exact f64_ext (by rw [hn]; rfl) (by rw [h0]; rfl))
  · rw [if_neg h0] at h; exact .inl h

theorem add_kept {x z : F64} (hx : x.isFin = true) (hz : z.mag = 0) : KeptZero x (F64.add x z) :=
  kept_of_zero (b := z.neg) (add_zero' (fun h => by rw [fin_not_nan hx] at h; cases h) hz)

theorem zero_add_kept {x z : F64} (hx : x.isFin = true) (hz : z.mag = 0) :
    KeptZero x (F64.add z x) :=
  kept_of_zero (b := z.neg) (by
    rw [zero_add'' (by simp [fin_not_nan hx]) hz, Bool.and_comm])

theorem sub_kept {x z : F64} (hx : x.isFin = true) (hz : z.mag = 0) : KeptZero x (F64.sub x z) := by
  rw [sub_eq_add (fin_not_nan hx) (fin_not_nan (zero_fin hz))]
  exact add_kept hx hz

/-- Three components, each kept. -/
def Kept3 (v w : Vec3 F64) : Prop := KeptZero v.x w.x ∧ KeptZero v.y w.y ∧ KeptZero v.z w.z

theorem kept3_fin {v w : Vec3 F64} (h : Kept3 v w) (hv : v.Finite) : w.Finite :=
  ⟨keptZero_fin h.1 hv.1, keptZero_fin h.2.1 hv.2.1, keptZero_fin h.2.2 hv.2.2⟩

theorem kept3_trans {u v w : Vec3 F64} (h : Kept3 u v) (k : Kept3 v w) : Kept3 u w :=
  ⟨keptZero_trans h.1 k.1, keptZero_trans h.2.1 k.2.1, keptZero_trans h.2.2 k.2.2⟩

theorem roll_kept {v : Vec3 F64} {c s : F64} (hv : v.Finite) (hc : c.isFin = true)
    (h1 : c.value = 1) (hs : s.mag = 0) : Kept3 v (rotRoll v c s) := by
  obtain ⟨x, y, z⟩ := v
  obtain ⟨hx, hy, hz⟩ := hv
  refine ⟨?_, ?_, .inl rfl⟩
  · change KeptZero x (F64.sub (F64.mul x c) (F64.mul y s))
    rw [mul_one' hx hc h1]; exact sub_kept hx (mul_zero' hy hs)
  · change KeptZero y (F64.add (F64.mul x s) (F64.mul y c))
    rw [mul_one' hy hc h1]; exact zero_add_kept hy (mul_zero' hx hs)

theorem pitch_kept {v : Vec3 F64} {c s : F64} (hv : v.Finite) (hc : c.isFin = true)
    (h1 : c.value = 1) (hs : s.mag = 0) : Kept3 v (rotPitch v c s) := by
  obtain ⟨x, y, z⟩ := v
  obtain ⟨hx, hy, hz⟩ := hv
  refine ⟨.inl rfl, ?_, ?_⟩
  · change KeptZero y (F64.sub (F64.mul y c) (F64.mul z s))
    rw [mul_one' hy hc h1]; exact sub_kept hy (mul_zero' hz hs)
  · change KeptZero z (F64.add (F64.mul y s) (F64.mul z c))
    rw [mul_one' hz hc h1]; exact zero_add_kept hz (mul_zero' hy hs)

theorem yaw_kept {v : Vec3 F64} {c s : F64} (hv : v.Finite) (hc : c.isFin = true)
    (h1 : c.value = 1) (hs : s.mag = 0) : Kept3 v (rotYaw v c s) := by
  obtain ⟨x, y, z⟩ := v
  obtain ⟨hx, hy, hz⟩ := hv
  refine ⟨?_, .inl rfl, ?_⟩
  · change KeptZero x (F64.add (F64.mul x c) (F64.mul z s))
    rw [mul_one' hx hc h1]; exact add_kept hx (mul_zero' hz hs)
  · change KeptZero z (F64.sub (F64.mul z c) (F64.mul x s))
    rw [mul_one' hz hc h1]; exact sub_kept hz (mul_zero' hx hs)

theorem rotMap_kept {v : Vec3 F64} {cy sy cp sp cr sr : F64} (hv : v.Finite)
    (hy : cy.isFin = true ∧ cy.value = 1 ∧ sy.mag = 0)
    (hp : cp.isFin = true ∧ cp.value = 1 ∧ sp.mag = 0)
    (hr : cr.isFin = true ∧ cr.value = 1 ∧ sr.mag = 0) :
    Kept3 v (rotMap cy sy cp sp cr sr v) := by
  have k1 := roll_kept hv hr.1 hr.2.1 hr.2.2
  have k2 := pitch_kept (kept3_fin k1 hv) hp.1 hp.2.1 hp.2.2
  have k3 := yaw_kept (kept3_fin k2 (kept3_fin k1 hv)) hy.1 hy.2.1 hy.2.2
  exact kept3_trans k1 (kept3_trans k2 k3)

/-! ## Infinite components and NaNs -/

theorem nanOr_nan {x y k : F64} (h : x.isNaN = true ∨ y.isNaN = true) :
    (F64.nanOr x y k).isNaN = true := by
  unfold F64.nanOr
  by_cases hx : x.isNaN = true
  · rw [if_pos hx]; exact (F64.quiet_quiet x hx).1
  · rw [if_neg hx, if_pos (h.resolve_left hx)]
    exact (F64.quiet_quiet y (h.resolve_left hx)).1

theorem not_fin {x : F64} (h : x.isFin = false) : x.isNaN = true ∨ x.isInf = true := by
  simp only [F64.isFin, F64.isInf, F64.isNaN, decide_eq_true_eq, decide_eq_false_iff_not] at *
  omega

theorem mul_zero_nan {x s : F64} (hx : x.isFin = false) (hs : s.mag = 0) :
    (F64.mul x s).isNaN = true := by
  rcases not_fin hx with h | h
  · exact nanOr_nan (.inl h)
  · unfold F64.mul F64.nanOr
    have hn : x.isNaN = false := by
      simp only [F64.isInf, F64.isNaN, decide_eq_true_eq, decide_eq_false_iff_not] at *; omega
    rw [if_neg (by simp [hn]), if_neg (by simp [fin_not_nan (zero_fin hs)]),
      if_pos (by simp [h]), if_pos (by simp [hs])]
    decide

theorem nan_not_fin {x : F64} (h : x.isNaN = true) : x.isFin = false := by
  simp only [F64.isFin, F64.isNaN, decide_eq_true_eq, decide_eq_false_iff_not] at *; omega

theorem mul_one_not_fin {x c : F64} (hx : x.isFin = false) (hv : c.value = 1) :
    (F64.mul x c).isFin = false := by
  rcases not_fin hx with h | h
  · exact nan_not_fin (nanOr_nan (.inl h))
  · unfold F64.mul F64.nanOr
    by_cases hcn : c.isNaN = true
    · have := F64.quiet_quiet c hcn
      have hn : x.isNaN = false := by
        simp only [F64.isInf, F64.isNaN, decide_eq_true_eq, decide_eq_false_iff_not] at *; omega
      rw [if_neg (by simp [hn]), if_pos hcn]
      exact nan_not_fin this.1
    have hn : x.isNaN = false := by
      simp only [F64.isInf, F64.isNaN, decide_eq_true_eq, decide_eq_false_iff_not] at *; omega
    have h0 : x.mag ≠ 0 := by
      intro h0; rw [fin_not_inf (zero_fin h0)] at h; cases h
    rw [if_neg (by simp [hn]), if_neg hcn, if_pos (by simp [h]),
      if_neg (by simp [h0, (one_mag hv).1])]
    cases x.neg != c.neg <;> decide

theorem add_not_fin {x y : F64} (hx : x.isFin = false) : (F64.add x y).isFin = false := by
  rcases not_fin hx with h | h
  · exact nan_not_fin (nanOr_nan (.inl h))
  · unfold F64.add F64.nanOr
    have hn : x.isNaN = false := by
      simp only [F64.isInf, F64.isNaN, decide_eq_true_eq, decide_eq_false_iff_not] at *; omega
    rw [if_neg (by simp [hn])]
    by_cases hy : y.isNaN = true
    · rw [if_pos hy]; exact nan_not_fin (F64.quiet_quiet y hy).1
    · rw [if_neg hy, if_pos h]
      split
      · decide
      · exact hx

theorem add_not_fin' {x y : F64} (hy : y.isFin = false) : (F64.add x y).isFin = false := by
  by_cases hx : x.isFin = false
  · exact add_not_fin hx
  · simp only [Bool.not_eq_false] at hx
    rcases not_fin hy with h | h
    · exact nan_not_fin (nanOr_nan (.inr h))
    · unfold F64.add F64.nanOr
      have hn : y.isNaN = false := by
        simp only [F64.isInf, F64.isNaN, decide_eq_true_eq, decide_eq_false_iff_not] at *; omega
      rw [if_neg (by simp [fin_not_nan hx]), if_neg (by simp [hn]),
        if_neg (by simp [fin_not_inf hx]), if_pos h]
      exact hy

/-- After turning by nothing, the first component of a vector with a component that is not finite is
not a number. -/
theorem rotMap_nan {v : Vec3 F64} {cy sy cp sp cr sr : F64} (hv : ¬ v.Finite)
    (hy : sy.mag = 0) (hp : cp.value = 1 ∧ sp.mag = 0) (hr : sr.mag = 0) :
    (rotMap cy sy cp sp cr sr v).x.isNaN = true := by
  obtain ⟨x, y, z⟩ := v
  change (F64.add (F64.mul (F64.sub (F64.mul x cr) (F64.mul y sr)) cy)
    (F64.mul (F64.add (F64.mul (F64.add (F64.mul x sr) (F64.mul y cr)) sp) (F64.mul z cp)) sy)).isNaN
      = true
  by_cases hx : x.isFin = false
  · have h1 : (F64.add (F64.mul x sr) (F64.mul y cr)).isNaN = true :=
      nanOr_nan (.inl (mul_zero_nan hx hr))
    exact nanOr_nan (.inr (nanOr_nan (.inl (nanOr_nan (.inl (nanOr_nan (.inl h1)))))))
  by_cases hy' : y.isFin = false
  · exact nanOr_nan (.inl (nanOr_nan (.inl (nanOr_nan (.inr (mul_zero_nan hy' hr))))))
  · have hz : z.isFin = false := by
      simp only [Vec3.Finite] at hv
      simp only [Bool.not_eq_false] at hx hy'
      simpa [hx, hy'] using hv
    exact nanOr_nan (.inr (mul_zero_nan (add_not_fin' (mul_one_not_fin hz hp.1)) hy))

/-! ## The whole vertex array -/

theorem NoTurn.get [Libm F64] {a : F64} (h : NoTurn a) :
    ∃ c s, (Libm.cos (Libm.radians a) = some c ∧ Libm.sin (Libm.radians a) = some s) ∧
      c.isFin = true ∧ c.value = 1 ∧ s.mag = 0 := by
  obtain ⟨⟨c, hc, h1, h2⟩, hs⟩ := h
  simp only [List.mem_cons, List.not_mem_nil, or_false] at hs
  rcases hs with hs | hs
  · exact ⟨c, _, ⟨hc, hs⟩, h1, h2, rfl⟩
  · exact ⟨c, _, ⟨hc, hs⟩, h1, h2, rfl⟩

theorem vec3At_turn {F : Type} {l : List F} {o : Nat} {v : Vec3 F} :
    vec3At l o = some v ↔ l[o]? = some v.x ∧ l[o + 1]? = some v.y ∧ l[o + 2]? = some v.z := by
  unfold vec3At
  obtain ⟨x, y, z⟩ := v
  rcases l[o]? with _ | a <;> rcases l[o + 1]? with _ | b <;> rcases l[o + 2]? with _ | c <;>
    simp

end Bf2
