import Verif.OldTests
import Verif.RepoEditLemmas
import Verif.ColEditLemmas
import Verif.ColEqualSpec
import Verif.EqualLemmas

/-! # Lemmas about the old tests (C131) -/

namespace Bf2

theorem eqVec3_iff (a b : Vec3 F64) : eqVec3 a b = true ↔ NumsEq a.floats b.floats := by
  simp only [eqVec3, Bool.and_eq_true, feq_iff, NumsEq, Vec3.floats, List.forall₂_cons,
    List.forall₂_nil_left_iff, and_true, and_assoc]

theorem forall₂_iff_getElem? {α β : Type} {R : α → β → Prop} {l : List α} {k : List β} :
    List.Forall₂ R l k ↔ l.length = k.length ∧
      ∀ (i : Nat) x, l[i]? = some x → ∃ y, k[i]? = some y ∧ R x y := by
  constructor
  · intro h
    refine ⟨h.length_eq, fun i x hx => ?_⟩
    obtain ⟨hi, rfl⟩ := List.getElem?_eq_some_iff.1 hx
    have hk : i < k.length := h.length_eq ▸ hi
    exact ⟨k[i], List.getElem?_eq_getElem hk, List.forall₂_iff_get.1 h |>.2 i hi hk⟩
  · rintro ⟨h1, h2⟩
    rw [List.forall₂_iff_get]
    refine ⟨h1, fun i hi hk => ?_⟩
    obtain ⟨y, hy, hR⟩ := h2 i l[i] (List.getElem?_eq_getElem hi)
    rw [List.getElem?_eq_getElem hk] at hy
    cases hy
    exact hR

theorem assertPairs_true {α β : Type} {f : α → β → Except Err Bool} {l : List α} {k : List β} :
    assertPairs f l k = .ok true ↔ List.Forall₂ (fun x y => f x y = .ok true) l k := by
  unfold assertPairs
  rw [thenAssert_true, decide_eq_true_eq, assertEach_true, forall₂_iff_getElem?]
  refine and_congr_right fun _ => ⟨fun h i x hx => ?_, fun h p hp => ?_⟩
  · have := h (i, x) (numbered_mem.2 hx)
    dsimp only at this
    rcases hk : k[i]? with _ | y
    · rw [hk] at this; cases this
    · rw [hk] at this; exact ⟨y, rfl, this⟩
  · obtain ⟨y, hy, hf⟩ := h p.1 p.2 (numbered_mem.1 hp)
    rw [hy]
    exact hf

theorem assertEach_total {α : Type} {f : α → Except Err Bool} {l : List α}
    (h : ∀ a ∈ l, ∃ b, f a = .ok b) : ∃ b, assertEach f l = .ok b := by
  induction l with
  | nil => exact ⟨true, rfl⟩
  | cons a l ih =>
    obtain ⟨b, hb⟩ := h a (by simp)
    obtain ⟨b', hb'⟩ := ih fun x hx => h x (by simp [hx])
    rw [assertEach, hb]
    cases b
    · exact ⟨false, rfl⟩
    · exact ⟨b', hb'⟩

theorem assertPairs_total {α β : Type} {f : α → β → Except Err Bool} {l : List α} {k : List β}
    (h : ∀ x y, ∃ b, f x y = .ok b) : ∃ b, assertPairs f l k = .ok b := by
  unfold assertPairs thenAssert
  split
  · next hl =>
    rw [decide_eq_true_eq] at hl
    apply assertEach_total
    intro p hp
    have hi := (List.getElem?_eq_some_iff.1 (numbered_mem.1 hp)).1
    rw [List.getElem?_eq_getElem (hl ▸ hi)]
    exact h _ _
  · exact ⟨false, rfl⟩

section
variable {φ : Type}

theorem assertMovedLod_true (off : Vec3 F64) (l o : ColLod F64 φ) : assertMovedLod off l o = .ok true ↔
    List.Forall₂ (fun v w => NumsEq v.floats (Vec3.plus w off).floats) l.vertices o.vertices ∧
    l.faces.length = o.faces.length := by
  have h := assertPairs_true (f := fun v w : Vec3 F64 => .ok (eqVec3 v (w.plus off)))
    (l := l.vertices) (k := o.vertices)
  simp only [Except.ok.injEq, eqVec3_iff] at h
  rw [← h]
  unfold assertMovedLod
  rcases assertPairs (fun v w : Vec3 F64 => .ok (eqVec3 v (w.plus off))) l.vertices o.vertices with
    e | _ | _ <;> simp

theorem colTranslateTest_true (off : Vec3 F64) (m o : ColMesh F64 φ) :
    colTranslateTest off m o = .ok true ↔
    List.Forall₂ (fun g h : ColGeom F64 φ => List.Forall₂ (fun s t : ColSub F64 φ =>
      List.Forall₂ (fun l k : ColLod F64 φ =>
        List.Forall₂ (fun v w => NumsEq v.floats (Vec3.plus w off).floats) l.vertices k.vertices ∧
        l.faces.length = k.faces.length)
      s.lods t.lods) g.subgeoms h.subgeoms) m.geoms o.geoms := by
  unfold colTranslateTest
  simp only [assertPairs_true, assertMovedLod_true]

theorem colTranslateTest_total (off : Vec3 F64) (m o : ColMesh F64 φ) :
    ∃ b, colTranslateTest off m o = .ok b := by
  refine assertPairs_total fun g h => assertPairs_total fun s t => assertPairs_total fun l k => ?_
  obtain ⟨b, hb⟩ := assertPairs_total (l := l.vertices) (k := k.vertices)
    (f := fun v w : Vec3 F64 => .ok (eqVec3 v (w.plus off))) fun _ _ => ⟨_, rfl⟩
  unfold assertMovedLod
  rw [hb]
  cases b
  · exact ⟨_, rfl⟩
  · exact ⟨_, rfl⟩

end

theorem add_isNaN {x y : F64} (hy : y.isFin = true) : (F64.add x y).isNaN = x.isNaN := by
  have hy1 : y.isNaN = false := by
    simp only [F64.isNaN, F64.isFin, decide_eq_true_eq, decide_eq_false_iff_not] at *; omega
  have hy2 : y.isInf = false := by
    simp only [F64.isInf, F64.isFin, decide_eq_true_eq, decide_eq_false_iff_not] at *; omega
  unfold F64.add F64.nanOr
  by_cases hx : x.isNaN = true
  · rw [if_pos hx, (F64.quiet_quiet x hx).1, hx]
  · rw [if_neg hx, if_neg (by simp [hy1])]
    by_cases hi : x.isInf = true
    · rw [if_pos hi, if_neg (by simp [hy2])]
    · rw [if_neg hi, if_neg (by simp [hy2])]
      obtain ⟨s, he, -⟩ := ofRat_form (x.neg && y.neg) (x.toRat + y.toRat)
      rw [he]
      have h1 : x.isNaN = false := by simpa using hx
      rw [h1]
      unfold F64.isNaN F64.mk'
      simp only [decide_eq_false_iff_not, not_lt]
      exact (Nat.mod_le _ _).trans (min_le_left _ _)

/-! ## Vertex objects without their data -/

section
variable {F : Type}

/-- The same attributes. -/
def SameAttrs (v w : VObj F) : Prop := ∀ u, (v u).isSome = (w u).isSome

theorem getVertex_sameAttrs (m : OldMesh F) (l : List F) (i i' : Int) :
    match getVertex { m with vertices := l } i, getVertex m i' with
    | .ok v, .ok w => SameAttrs v w
    | .error e, .error e' => e = e'
    | _, _ => False := by
  have key : ∀ (as : List VAttr) (s : Int) (v w : VObj F), SameAttrs v w →
      match foldE (readAttr { m with vertices := l } i s) v as, foldE (readAttr m i' s) w as with
      | .ok v, .ok w => SameAttrs v w
      | .error e, .error e' => e = e'
      | _, _ => False := by
    intro as s
    induction as with
    | nil => intro v w h; exact h
    | cons a as ih =>
      intro v w h
      unfold foldE readAttr
      dsimp only
      rcases oldAttr m.vertformat a with e | o
      · rfl
      · dsimp only
        by_cases hf : a.flag = 255
        · simp only [if_pos hf]; exact ih v w h
        · simp only [if_neg hf]
          by_cases ht : a.vartype = 17
          · simp only [if_pos ht]; exact ih v w h
          · simp only [if_neg ht]
            rcases oldDeclLen a.vartype with e | n
            · rfl
            · dsimp only
              apply ih
              intro u
              unfold VObj.set
              split
              · rfl
              · exact h u
  unfold getVertex
  by_cases h0 : m.vertformat = 0
  · simp only [if_pos h0]
  · simp only [if_neg h0]
    exact key m.vattrs _ _ _ fun _ => rfl

/-- The vertex objects of two meshes that differ in their vertex data only. -/
theorem getVertices_sameAttrs (m : OldMesh F) (l : List F) :
    (∃ vs ws, getVertices { m with vertices := l } = .ok vs ∧ getVertices m = .ok ws ∧
      List.Forall₂ SameAttrs vs ws) ∨
    ∃ e, getVertices { m with vertices := l } = .error e ∧ getVertices m = .error e := by
  unfold getVertices
  dsimp only
  generalize List.range m.vertnum.toNat = is
  induction is with
  | nil => exact Or.inl ⟨[], [], rfl, rfl, .nil⟩
  | cons i is ih =>
    have h := getVertex_sameAttrs m l i i
    unfold mapE
    rcases hv : getVertex { m with vertices := l } i with e | v <;>
      rcases hw : getVertex m i with e' | w <;> rw [hv, hw] at h
    · dsimp only at h
      subst h
      exact Or.inr ⟨e, rfl, rfl⟩
    · exact h.elim
    · exact h.elim
    · dsimp only at h ⊢
      rcases ih with ⟨vs, ws, e1, e2, hs⟩ | ⟨e, e1, e2⟩
      · rw [e1, e2]; exact Or.inl ⟨_, _, rfl, rfl, .cons h hs⟩
      · rw [e1, e2]; exact Or.inr ⟨e, rfl, rfl⟩

theorem assertEach_congr {α : Type} {f g : Nat × α → Except Err Bool} {l k : List α}
    (h : List.Forall₂ (fun x y => ∀ i, f (i, x) = g (i, y)) l k) :
    assertEach f (numbered l) = assertEach g (numbered k) := by
  unfold numbered
  rw [h.length_eq]
  generalize List.range k.length = is
  induction h generalizing is with
  | nil => cases is <;> rfl
  | @cons x y l k hxy _ ih =>
    cases is with
    | nil => rfl
    | cons i is =>
      simp only [List.zip_cons_cons, assertEach, hxy i, ih is]

end

end Bf2
