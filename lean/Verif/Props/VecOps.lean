import Verif.VecOps
import Verif.FloatArith
import Verif.Exact
import Verif.Sample
import Mathlib.LinearAlgebra.CrossProduct

/-!
# Properties of the vector class (C74, C75)
-/

namespace Bf2

/-! ## C74: the cross product is wrong -/

/-- The three components as a function on indices, to compare with Mathlib's vectors. -/
def Vec3.toFun {F : Type} (v : Vec3 F) : Fin 3 → F := ![v.x, v.y, v.z]

open Matrix in
/-- `cross(v1, v2)` is the cross product exactly when `v1.x = v1.z` or `v2` is along the z axis. -/
theorem C74_cross_right_iff (v1 v2 : Vec3 ℝ) :
    (Vec3.cross v1 v2).toFun = v1.toFun ⨯₃ v2.toFun ↔ v1.x = v1.z ∨ v2.x = 0 ∧ v2.y = 0 := by
  have e : v1.toFun ⨯₃ v2.toFun = ![v1.y * v2.z - v1.z * v2.y, v1.z * v2.x - v1.x * v2.z,
      v1.x * v2.y - v1.y * v2.x] := by
    rw [cross_apply]; rfl
  rw [e]
  have : (Vec3.cross v1 v2).toFun = ![v1.y * v2.z - v1.z * v2.y, v1.x * v2.x - v1.x * v2.z,
      v1.z * v2.y - v1.y * v2.x] := rfl
  rw [this]
  constructor
  · intro h
    have h1 := congrFun h 1
    have h2 := congrFun h 2
    simp at h1 h2
    rcases h1 with h1 | h1
    · exact Or.inl h1
    · rcases h2 with h2 | h2
      · exact Or.inl h2.symm
      · exact Or.inr ⟨h1, h2⟩
  · rintro (h | ⟨h1, h2⟩)
    · rw [h]
    · rw [h1, h2]; simp

/-- Both sides occur. -/
example : ∃ u v w : Vec3 ℝ, (u.x = u.z ∨ v.x = 0 ∧ v.y = 0) ∧ ¬ (w.x = w.z ∨ w.x = 0 ∧ w.y = 0) :=
  ⟨⟨1, 2, 1⟩, ⟨1, 2, 3⟩, ⟨1, 2, 3⟩, by norm_num, by norm_num⟩

/-- It is not even orthogonal to its arguments, antisymmetric, or zero on equal arguments; of the
first two unit vectors it is zero. -/
theorem C74_cross_laws_fail :
    (∃ v w : Vec3 ℝ, Vec3.dot v (Vec3.cross v w) ≠ 0 ∧ Vec3.dot w (Vec3.cross v w) ≠ 0) ∧
    (∃ v w : Vec3 ℝ, (Vec3.cross v w).toFun ≠ - (Vec3.cross w v).toFun) ∧
    (∃ v : Vec3 ℝ, (Vec3.cross v v).toFun ≠ 0) ∧
    (Vec3.cross (F := ℝ) ⟨1, 0, 0⟩ ⟨0, 1, 0⟩).toFun = 0 := by
  have e : ∀ v w : Vec3 ℝ, Vec3.cross v w = ⟨v.y * w.z - v.z * w.y, v.x * w.x - v.x * w.z,
      v.z * w.y - v.y * w.x⟩ := fun _ _ => rfl
  have d : ∀ v w : Vec3 ℝ, Vec3.dot v w = v.x * w.x + v.y * w.y + v.z * w.z := fun _ _ => rfl
  refine ⟨⟨⟨1, 2, 3⟩, ⟨4, 5, 7⟩, ?_, ?_⟩, ⟨⟨1, 2, 3⟩, ⟨4, 5, 7⟩, ?_⟩, ⟨⟨1, 2, 3⟩, ?_⟩, ?_⟩
  · rw [d, e]; norm_num
  · rw [d, e]; norm_num
  · intro h
    have := congrFun h 1
    rw [e, e] at this
    simp [Vec3.toFun] at this
    norm_num at this
  · intro h
    have := congrFun h 1
    rw [e] at this
    simp [Vec3.toFun] at this
    norm_num at this
  · rw [e]
    funext i
    match i with
    | 0 => simp [Vec3.toFun]
    | 1 => simp [Vec3.toFun]
    | 2 => simp [Vec3.toFun]

/-! ## C75: differences and quotients -/

/-- Component `i` of a vector. -/
def Vec3.at {F : Type} (v : Vec3 F) : Fin 3 → F
  | 0 => v.x
  | 1 => v.y
  | 2 => v.z

/-- The components of `a + b`, `a - b` are correctly rounded. -/
theorem C75_add_sub_rounded (a b : Vec3 F64) (i : Fin 3) (ha : (a.at i).isFin = true)
    (hb : (b.at i).isFin = true) :
    Rounded ((a.at i).value + (b.at i).value) ((a.add b).at i) ∧
    Rounded ((a.at i).value - (b.at i).value) ((a.sub b).at i) := by
  have hs : ∀ y : F64, y.isFin = true → y.negate.isFin = true := fun y h => h
  have key : ∀ x y : F64, x.isFin = true → y.isFin = true →
      Rounded (x.value - y.value) (F64.add x y.negate) := by
    intro x y hx hy
    rw [sub_eq_add_neg, ← negate_value]
    exact add_rounded hx (hs y hy)
  match i with
  | 0 => exact ⟨add_rounded ha hb, key _ _ ha hb⟩
  | 1 => exact ⟨add_rounded ha hb, key _ _ ha hb⟩
  | 2 => exact ⟨add_rounded ha hb, key _ _ ha hb⟩

theorem div_none (x y : F64) : F64.div? x y = none ↔ y.mag = 0 := by
  unfold F64.div?
  split <;> simp [*]

/-- Division by a vector raises `ZeroDivisionError` exactly when a component of the divisor is a
zero of either sign, whatever the dividend. -/
theorem C75_div_raises (a b : Vec3 F64) :
    (Vec3.divVec a b = .error .zeroDivisionError ↔ ∃ i, (b.at i).mag = 0) ∧
    (Vec3.divVec a b ≠ .error .zeroDivisionError → ∃ c, Vec3.divVec a b = .ok c) := by
  have e : (∃ i, (b.at i).mag = 0) ↔ b.x.mag = 0 ∨ b.y.mag = 0 ∨ b.z.mag = 0 := by
    constructor
    · rintro ⟨i, h⟩
      match i with
      | 0 => exact Or.inl h
      | 1 => exact Or.inr (Or.inl h)
      | 2 => exact Or.inr (Or.inr h)
    · rintro (h | h | h)
      · exact ⟨0, h⟩
      · exact ⟨1, h⟩
      · exact ⟨2, h⟩
  rw [e, ← div_none a.x, ← div_none a.y, ← div_none a.z]
  unfold Vec3.divVec
  rw [show F64.div? a.x b.x = FDiv.div a.x b.x from rfl,
    show F64.div? a.y b.y = FDiv.div a.y b.y from rfl,
    show F64.div? a.z b.z = FDiv.div a.z b.z from rfl]
  cases FDiv.div a.x b.x <;> cases FDiv.div a.y b.y <;> cases FDiv.div a.z b.z <;> simp

theorem div_rounded {x y q : F64} (hx : x.isFin = true) (hy : y.isFin = true)
    (h : F64.div? x y = some q) : Rounded (x.value / y.value) q := by
  simp only [F64.isFin, decide_eq_true_eq] at hx hy
  unfold F64.div? F64.nanOr F64.isNaN F64.isInf at h
  split at h
  · cases h
  · simp only [decide_eq_true_eq, Option.some.injEq] at h
    rw [if_neg (by omega), if_neg (by omega), if_neg (by omega), if_neg (by omega)] at h
    subst h
    rw [toRat_eq, toRat_eq]
    exact ofRat_rounded _ _

/-- The components of a quotient are correctly rounded. -/
theorem C75_div_rounded (a b c : Vec3 F64) (h : Vec3.divVec a b = .ok c) (i : Fin 3)
    (ha : (a.at i).isFin = true) (hb : (b.at i).isFin = true) :
    Rounded ((a.at i).value / (b.at i).value) (c.at i) := by
  unfold Vec3.divVec at h
  split at h
  · rename_i x y z hx hy hz
    cases h
    match i with
    | 0 => exact div_rounded ha hb hx
    | 1 => exact div_rounded ha hb hy
    | 2 => exact div_rounded ha hb hz
  · cases h

/-- Division by a number raises exactly for the two zeros; otherwise the components are correctly
rounded. -/
theorem C75_div_scalar (a : Vec3 F64) (t : F64) :
    (Vec3.divScalar a t = .error .zeroDivisionError ↔ t.mag = 0) ∧
    (t.mag ≠ 0 → ∃ c, Vec3.divScalar a t = .ok c ∧ ∀ i, (a.at i).isFin = true → t.isFin = true →
      Rounded ((a.at i).value / t.value) (c.at i)) := by
  have e : Vec3.divScalar a t = Vec3.divVec a ⟨t, t, t⟩ := rfl
  have ht : ∀ i, (Vec3.at ⟨t, t, t⟩ i) = t := by
    intro i
    match i with
    | 0 => rfl
    | 1 => rfl
    | 2 => rfl
  have h := C75_div_raises a ⟨t, t, t⟩
  simp only [ht, exists_const] at h
  rw [e]
  refine ⟨h.1, fun h0 => ?_⟩
  obtain ⟨c, hc⟩ := h.2 (fun h' => h0 (h.1.1 h'))
  refine ⟨c, hc, fun i ha hb => ?_⟩
  have := C75_div_rounded a _ c hc i ha (by rw [ht]; exact hb)
  rwa [ht] at this

/-- 1/3 is rounded; dividing by a vector with a zero raises, dividing by -0.0 too. -/
example : Vec3.divVec ⟨flt 1, flt 6, flt 0⟩ ⟨flt 3, flt 2, flt 5⟩ =
      .ok ⟨F64.ofRat false (1 / 3), flt 3, flt 0⟩ ∧
    Vec3.divVec ⟨flt 1, flt 1, flt 1⟩ ⟨flt 1, flt 0, flt 1⟩ = .error .zeroDivisionError ∧
    Vec3.divScalar ⟨flt 1, flt 1, flt 1⟩ (flt 0).negate = .error .zeroDivisionError := by
  decide +kernel

end Bf2
