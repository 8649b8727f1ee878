import Verif.OldEqual
import Verif.OldEqualSpec
import Verif.EqualLemmas

namespace Bf2

theorem objsEq_iff {α : Type} {eq : α → α → Bool} {R : α → α → Prop} (h : ∀ x y, eq x y = true ↔ R x y)
    (l r : List α) : objsEq eq l r = true ↔ List.Forall₂ R l r := by
  induction l generalizing r with
  | nil => cases r <;> simp [objsEq]
  | cons x xs ih => cases r <;> simp [objsEq, h, ih]

theorem guard_and {p : Prop} [Decidable p] {e : Bool} :
    (if ¬ p then false else e) = true ↔ e = true ∧ p := by
  by_cases h : p <;> simp [h]

theorem guard_and' {b e : Bool} : (if b = false then false else e) = true ↔ e = true ∧ b = true := by
  cases b <;> simp

theorem oldEqMat_iff (a b : Mat F64) : oldEqMat a b = true ↔
    MatEqual a b ∧ NumsEq (optFloats a.mmax) (optFloats b.mmax) := by
  unfold oldEqMat
  simp only [ne_eq, guard_and, guard_and', optVecEq_iff]
  constructor
  · rintro ⟨⟨⟨⟨⟨⟨⟨⟨⟨⟨⟨⟨⟨-, h1⟩, h2⟩, h3⟩, h4⟩, h5⟩, h6⟩, h7⟩, h8⟩, h9⟩, h10⟩, h11⟩, h12⟩, h13⟩
    exact ⟨⟨h1, h2, h3, h4, h5, h6, h7, h8, h9, h10, h11, h12⟩, h13⟩
  · rintro ⟨⟨h1, h2, h3, h4, h5, h6, h7, h8, h9, h10, h11, h12⟩, h13⟩
    exact ⟨⟨⟨⟨⟨⟨⟨⟨⟨⟨⟨⟨⟨trivial, h1⟩, h2⟩, h3⟩, h4⟩, h5⟩, h6⟩, h7⟩, h8⟩, h9⟩, h10⟩, h11⟩, h12⟩, h13⟩

theorem optMatEq_iff (a b : Option (Mat4 F64)) : optMatEq a b = true ↔
    NumsEq (a.elim [] Mat4.floats) (b.elim [] Mat4.floats) := by
  rcases a with _ | a <;> rcases b with _ | b
  · simp [optMatEq]
  · simp [optMatEq, Mat4.floats, Vec4.floats]
  · simp [optMatEq, Mat4.floats, Vec4.floats]
  · exact mat4Eq_iff a b

theorem oldEqLod_iff (a b : OldLod F64) : oldEqLod a b = true ↔ OldLodEqual a b := by
  have hr : objsEq (fun _ _ => false) a.rigs b.rigs = true ↔ a.rigs = [] ∧ b.rigs = [] := by
    rcases a.rigs with _ | _ <;> rcases b.rigs with _ | _ <;> simp [objsEq]
  unfold oldEqLod
  simp only [ne_eq, guard_and, guard_and', optVecEq_iff, vec3Eq_iff, optMatEq_iff, hr,
    objsEq_iff oldEqMat_iff]
  constructor
  · rintro ⟨⟨⟨⟨⟨⟨⟨⟨⟨-, h1⟩, h2⟩, h3⟩, h4⟩, h5⟩, h6⟩, h7⟩, h8⟩, h9⟩
    exact ⟨h1, h2, h3, h4, h5, h6, h7, h8, h9⟩
  · rintro ⟨h1, h2, h3, h4, h5, h6, h7, h8, h9⟩
    exact ⟨⟨⟨⟨⟨⟨⟨⟨⟨trivial, h1⟩, h2⟩, h3⟩, h4⟩, h5⟩, h6⟩, h7⟩, h8⟩, h9⟩

theorem oldEqGeom_iff (a b : OldGeom F64) : oldEqGeom a b = true ↔
    a.lodnum = b.lodnum ∧ List.Forall₂ OldLodEqual a.lods b.lods := by
  unfold oldEqGeom
  simp only [ne_eq, guard_and, objsEq_iff oldEqLod_iff]
  exact and_comm

theorem numsEq_self (l : List F64) : NumsEq l l ↔ ∀ x ∈ l, x.isNaN = false := by
  rw [NumsEq, List.forall₂_same]
  exact forall₂_congr fun x _ => numEq_self x

theorem oldLodEqual_self (l : OldLod F64) : OldLodEqual l l ↔
    l.rigs = [] ∧ ∀ x ∈ l.floats, F64.isNaN x = false := by
  have hm : List.Forall₂ (fun x y : Mat F64 => MatEqual x y ∧
      NumsEq (optFloats x.mmax) (optFloats y.mmax)) l.materials l.materials ↔
      ∀ x ∈ l.materials.flatMap Mat.floats, F64.isNaN x = false := by
    rw [List.forall₂_same]
    simp only [List.mem_flatMap]
    constructor
    · rintro h x ⟨a, ha, hx⟩
      obtain ⟨h1, h2⟩ := h a ha
      rcases List.mem_append.1 hx with hx | hx
      · exact (numsEq_self _).1 h1.mmin x hx
      · exact (numsEq_self _).1 h2 x hx
    · intro h a ha
      exact ⟨⟨rfl, rfl, rfl, rfl, rfl, rfl, rfl, rfl, rfl, rfl, rfl, (numsEq_self _).2 fun x hx =>
        h x ⟨a, ha, List.mem_append_left _ hx⟩⟩, (numsEq_self _).2 fun x hx =>
        h x ⟨a, ha, List.mem_append_right _ hx⟩⟩
  unfold OldLod.floats
  simp only [List.mem_append]
  constructor
  · intro h
    refine ⟨h.rigs.1, ?_⟩
    rintro x ((((hx | hx) | hx) | hx) | hx)
    · exact (numsEq_self _).1 h.min x hx
    · exact (numsEq_self _).1 h.max x hx
    · exact (numsEq_self _).1 h.pivot x hx
    · exact (numsEq_self _).1 h.nodes x hx
    · exact hm.1 h.materials x hx
  · rintro ⟨h1, h2⟩
    exact ⟨(numsEq_self _).2 fun x hx => h2 x (.inl (.inl (.inl (.inl hx)))),
      (numsEq_self _).2 fun x hx => h2 x (.inl (.inl (.inl (.inr hx)))),
      (numsEq_self _).2 fun x hx => h2 x (.inl (.inl (.inr hx))), rfl, ⟨h1, h1⟩, rfl,
      (numsEq_self _).2 fun x hx => h2 x (.inl (.inr hx)), rfl, hm.2 fun x hx => h2 x (.inr hx)⟩

end Bf2
