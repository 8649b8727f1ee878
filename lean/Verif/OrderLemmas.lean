import Verif.AlignLemmas
import Verif.MovedBoundsLemmas

/-! # Moves and saves keep the order of coordinates -/

namespace Bf2

/-! ## Saving -/

theorem stored_mag (x : F64) : (unpackF (packF x)).mag = unpackMag (packMag x.mag) := by
  rw [unpackF_mag, packF_mag]

theorem stored_neg (x : F64) : (unpackF (packF x)).neg = x.neg := by
  rw [unpackF_neg]
  exact packF_sgn x

/-- Rounding to single precision keeps the order. -/
theorem stored_mono {x y : F64} (fx : x.isFin = true) (fy : y.isFin = true) (h : x.value ≤ y.value) :
    (unpackF (packF x)).value ≤ (unpackF (packF y)).value := by
  simp only [F64.isFin, decide_eq_true_eq] at fx fy
  have mle : ∀ {a b : ℕ}, decMag 52 (-1074) a ≤ decMag 52 (-1074) b → a ≤ b := by
    intro a b hab
    have := encMag_mono 52 (-1074) (decMag_nonneg 52 (-1074) a) hab
    rwa [enc_dec, enc_dec] at this
  have mono : ∀ {a b : ℕ}, a ≤ b → b < inf64 → decMag 52 (-1074) (unpackMag (packMag a)) ≤
      decMag 52 (-1074) (unpackMag (packMag b)) := fun hab hb =>
    decMag_mono _ _ (unpackMag_mono (packMag_mono hab hb.le) (packMag_le hb.le))
  have zero : decMag 52 (-1074) (unpackMag (packMag 0)) = 0 := by decide +kernel
  have nn := fun b => decMag_nonneg 52 (-1074) b
  rw [value_eq, value_eq] at h ⊢
  rw [stored_mag, stored_mag, stored_neg, stored_neg]
  cases hx : x.neg <;> cases hy : y.neg <;> simp only [hx, hy, if_true, if_false, Bool.false_eq_true, neg_mul,
    one_mul, neg_le_neg_iff] at h ⊢
  · exact mono (mle h) fy
  · have zx : x.mag = 0 := by
      refine Nat.le_zero.1 (mle ?_)
      have := nn y.mag
      rw [show decMag 52 (-1074) 0 = 0 by decide +kernel]
      linarith
    have zy : y.mag = 0 := by
      refine Nat.le_zero.1 (mle ?_)
      have := nn x.mag
      rw [show decMag 52 (-1074) 0 = 0 by decide +kernel]
      linarith
    rw [zx, zy, zero]
    simp
  · have := nn (unpackMag (packMag x.mag))
    have := nn (unpackMag (packMag y.mag))
    linarith
  · exact mono (mle h) fx

/-- What is finite when read back was finite when saved. -/
theorem stored_fin {x : F64} (h : (unpackF (packF x)).isFin = true) : x.isFin = true := by
  simp only [F64.isFin, decide_eq_true_eq] at h ⊢
  rw [stored_mag] at h
  by_contra hn
  have hp : inf32 ≤ packMag x.mag := by
    unfold packMag
    rw [if_neg hn]
    split
    · exact le_rfl
    · unfold quiet32
      split <;> omega
  unfold unpackMag at h
  rw [if_neg (by omega)] at h
  split_ifs at h <;> omega

theorem add_fin {x t : F64} (ft : t.isFin = true) (h : (F64.add x t).isFin = true) : x.isFin = true := by
  obtain ⟨hn, hi, -⟩ := add_special x t
  by_contra hx
  have : x.isNaN = true ∨ x.isInf = true := by
    simp only [F64.isFin, F64.isNaN, F64.isInf, decide_eq_true_eq] at hx ⊢
    omega
  rcases this with h1 | h1
  · have := hn (.inl h1)
    simp only [F64.isFin, F64.isNaN, decide_eq_true_eq] at this h
    omega
  · rw [hi h1 ft] at h
    exact hx h

/-! ## One coordinate -/

/-- What an edit does to a coordinate. -/
def ColAct.one (c : Fin 3) : ColAct → F64 → F64
  | .move d, x => F64.add x (d.comp c)
  | .store, x => unpackF (packF x)

theorem on_comp (s : ColAct) (x : Vec3 F64) (c : Fin 3) : (s.on x).comp c = s.one c (x.comp c) := by
  cases s <;> fin_cases c <;> rfl

theorem all_comp (ss : List ColAct) (x : Vec3 F64) (c : Fin 3) :
    (ss.foldl (fun x s => s.on x) x).comp c = ss.foldl (fun x s => s.one c x) (x.comp c) := by
  induction ss generalizing x with
  | nil => rfl
  | cons s ss ih => rw [List.foldl_cons, List.foldl_cons, ih, on_comp]

theorem fine_comp {s : ColAct} {d : Vec3 F64} (h : s.Fine) (e : s = .move d) (c : Fin 3) : (d.comp c).isFin = true := by
  subst e
  fin_cases c
  exacts [h.1, h.2.1, h.2.2]

theorem one_fin {s : ColAct} (fine : s.Fine) {c : Fin 3} {x : F64} (h : (s.one c x).isFin = true) : x.isFin = true := by
  cases s with
  | move d => exact add_fin (fine_comp fine rfl c) h
  | store => exact stored_fin h

theorem all_fin {ss : List ColAct} (fine : ∀ s ∈ ss, s.Fine) {c : Fin 3} {x : F64}
    (h : (ss.foldl (fun x s => s.one c x) x).isFin = true) : x.isFin = true := by
  induction ss generalizing x with
  | nil => exact h
  | cons s ss ih =>
    exact one_fin (fine s List.mem_cons_self) (ih (fun t ht => fine t (List.mem_cons_of_mem _ ht)) h)

theorem all_mono {ss : List ColAct} (fine : ∀ s ∈ ss, s.Fine) {c : Fin 3} {x y : F64}
    (hx : (ss.foldl (fun x s => s.one c x) x).isFin = true) (hy : (ss.foldl (fun x s => s.one c x) y).isFin = true)
    (h : x.value ≤ y.value) :
    (ss.foldl (fun x s => s.one c x) x).value ≤ (ss.foldl (fun x s => s.one c x) y).value := by
  induction ss generalizing x y with
  | nil => exact h
  | cons s ss ih =>
    have hf : ∀ t ∈ ss, t.Fine := fun t ht => fine t (List.mem_cons_of_mem _ ht)
    have fs := fine s List.mem_cons_self
    have f1 := one_fin fs (all_fin hf hx)
    have f2 := one_fin fs (all_fin hf hy)
    refine ih hf hx hy ?_
    cases s with
    | move d => exact add_mono f1 f2 (fine_comp fs rfl c) h
    | store => exact stored_mono f1 f2 h

/-! ## Differences -/

theorem exactAll_sub (ss : List ColAct) (X Y : Fin 3 → ℝ) :
    exactAll true (ss.map ColAct.act) X - exactAll true (ss.map ColAct.act) Y = X - Y := by
  induction ss generalizing X Y with
  | nil => rfl
  | cons s ss ih =>
    refine (ih (s.act.exact true X) (s.act.exact true Y)).trans ?_
    cases s with
    | move d => simp [ColAct.act, Act.exact]
    | store => rfl

theorem all_gap {ss : List ColAct} {B : ℝ} {x y : Vec3 F64} (fine : ∀ s ∈ ss, s.Fine) (fx : x.Finite) (fy : y.Finite)
    (wx : ∀ pre, pre <+: ss → norm3 (exactAll true (pre.map ColAct.act) x.real.fn) ≤ B)
    (wy : ∀ pre, pre <+: ss → norm3 (exactAll true (pre.map ColAct.act) y.real.fn) ≤ B)
    (total : (ss.map fun s => s.act.error 0 B).sum ≤ B) (big : B ≤ 2 ^ 126) (c : Fin 3) :
    |((ss.foldl (fun x s => s.on x) x).real.fn c - (ss.foldl (fun x s => s.on x) y).real.fn c) -
      (x.real.fn c - y.real.fn c)| ≤ 2 * (ss.map fun s => s.act.error 0 B).sum := by
  have start : ∀ {z : Vec3 F64}, z.Finite → Close 0 z z.real.fn := fun h => ⟨h, by rw [sub_self]; simp [norm3]⟩
  have hx := (all_close (ε := 0) fine (start fx) wx (by rw [zero_add]; exact total) big).near
  have hy := (all_close (ε := 0) fine (start fy) wy (by rw [zero_add]; exact total) big).near
  rw [zero_add] at hx hy
  have ax := abs_le.1 ((comp_norm3 _ c).trans hx)
  have ay := abs_le.1 ((comp_norm3 _ c).trans hy)
  have e := congrFun (exactAll_sub ss x.real.fn y.real.fn) c
  simp only [Pi.sub_apply] at ax ay e
  rw [abs_le]
  constructor <;> linarith [ax.1, ax.2, ay.1, ay.2]

end Bf2
