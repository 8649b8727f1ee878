import Verif.MovedBoundsSpec
import Verif.BoundsLemmas
import Verif.AlgebraLemmas
import Verif.FloatArith
import Verif.RoundLemmas

/-! # Lemmas on the bounds of a moved mesh -/

namespace Bf2

/-- Rounding keeps the order. -/
theorem ofRat_mono (a b : Bool) {r s : ℚ} (h : r ≤ s) : (F64.ofRat a r).value ≤ (F64.ofRat b s).value := by
  have form : ∀ (neg : Bool) (t : ℚ), 0 ≤ decMag 52 (-1074) (min inf64 (encMag 52 (-1074) |t|)) ∧
      (t < 0 → (F64.ofRat neg t).value = -decMag 52 (-1074) (min inf64 (encMag 52 (-1074) |t|))) ∧
      (0 < t → (F64.ofRat neg t).value = decMag 52 (-1074) (min inf64 (encMag 52 (-1074) |t|))) ∧
      (t = 0 → (F64.ofRat neg t).value = 0) := by
    intro neg t
    obtain ⟨σ, he, h1, h2, -⟩ := ofRat_form neg t
    have hmag : (F64.mk' σ (min inf64 (encMag 52 (-1074) |t|))).mag =
      min inf64 (encMag 52 (-1074) |t|) := F64.mk'_mag (min_le_left _ _)
    refine ⟨decMag_nonneg _ _ _, fun ht => ?_, fun ht => ?_, fun ht => ?_⟩
    · rw [he, value_eq, hmag, h1 ht]
      simp [F64.mk']
    · rw [he, value_eq, hmag, h2 ht]
      simp [F64.mk']
    · subst ht
      exact ((ofRat_rounded neg 0).exact (z := FArith.zero) (by decide) (by decide +kernel)).2
  obtain ⟨pr, nr, qr, zr⟩ := form a r
  obtain ⟨ps, ns, qs, zs⟩ := form b s
  have mono : ∀ {x y : ℚ}, 0 ≤ x → x ≤ y → decMag 52 (-1074) (min inf64 (encMag 52 (-1074) x)) ≤
      decMag 52 (-1074) (min inf64 (encMag 52 (-1074) y)) := fun h0 h =>
    decMag_mono _ _ (min_le_min_left _ (encMag_mono 52 (-1074) h0 h))
  rcases lt_trichotomy r 0 with hr | hr | hr <;> rcases lt_trichotomy s 0 with hs | hs | hs
  · rw [nr hr, ns hs, neg_le_neg_iff, abs_of_neg hr, abs_of_neg hs]
    exact mono (by linarith) (by linarith)
  · rw [nr hr, zs hs]; linarith
  · rw [nr hr, qs hs]; linarith
  · linarith
  · rw [zr hr, zs hs]
  · rw [zr hr, qs hs]; exact ps
  · linarith
  · linarith
  · rw [qr hr, qs hs, abs_of_pos hr, abs_of_pos hs]
    exact mono hr.le h

/-- So does adding the same number. -/
theorem add_mono {x y t : F64} (fx : x.isFin = true) (fy : y.isFin = true) (ft : t.isFin = true)
    (h : x.value ≤ y.value) : (F64.add x t).value ≤ (F64.add y t).value := by
  have e : ∀ {x : F64}, x.isFin = true → F64.add x t = F64.ofRat (x.neg && t.neg) (x.toRat + t.toRat) := by
    intro x hx
    simp only [F64.isFin, decide_eq_true_eq] at hx ft
    unfold F64.add F64.nanOr F64.isNaN F64.isInf
    simp only [decide_eq_true_eq]
    rw [if_neg (by omega), if_neg (by omega), if_neg (by omega), if_neg (by omega)]
  rw [e fx, e fy]
  refine ofRat_mono _ _ ?_
  rw [toRat_eq, toRat_eq, toRat_eq]
  linarith

/-- A box around the origin and some points that ends at one of them or at the origin. -/
structure OriginBox (mn mx : Vec3 F64) (P : Vec3 F64 → Prop) : Prop where
  covers : Covers mn mx P
  tight : Tight mn mx P
  origin : Covers mn mx (· = ⟨FArith.zero, FArith.zero, FArith.zero⟩)

theorem fold_originBox (ps : List (Vec3 F64)) : OriginBox (ps.foldl Box.extend Box.zero).min
    (ps.foldl Box.extend Box.zero).max (· ∈ ps) := by
  refine ⟨fold_covers ps Box.zero, fun c => ?_, ?_⟩
  · have := fold_tight ps (Box.zero : Box F64) c
    rwa [(zero_comp c).1, (zero_comp c).2] at this
  · rintro x rfl c
    refine extend_keeps ps Box.zero c _ ?_ ?_
    · rw [(zero_comp c).1]; fin_cases c <;> exact LawfulLt.irrefl _
    · rw [(zero_comp c).2]; fin_cases c <;> exact LawfulLt.irrefl _

theorem OriginBox.values {mn mx : Vec3 F64} {P : Vec3 F64 → Prop} (h : OriginBox mn mx P)
    (fin : ∀ x, P x → ∀ c, (x.comp c).isFin = true) (c : Fin 3) :
    (mn.comp c).isFin = true ∧ (mx.comp c).isFin = true ∧ (mn.comp c).value ≤ 0 ∧ 0 ≤ (mx.comp c).value ∧
      ∀ x, P x → (mn.comp c).value ≤ (x.comp c).value ∧ (x.comp c).value ≤ (mx.comp c).value := by
  have hz : (FArith.zero : F64).isFin = true := by decide
  have vz : (FArith.zero : F64).value = 0 := by decide +kernel
  have h1 : (mn.comp c).isFin = true := by
    rcases (h.tight c).1 with e | ⟨y, hy, e⟩
    · rw [e]; exact hz
    · rw [e]; exact fin y hy c
  have h2 : (mx.comp c).isFin = true := by
    rcases (h.tight c).2 with e | ⟨y, hy, e⟩
    · rw [e]; exact hz
    · rw [e]; exact fin y hy c
  have key : ∀ z : F64, z.isFin = true → FArith.lt z (mn.comp c) = false ∧ FArith.lt (mx.comp c) z = false →
      (mn.comp c).value ≤ z.value ∧ z.value ≤ (mx.comp c).value := by
    intro z fz this
    constructor
    · rw [← not_lt, ← lt'_iff fz h1, Bool.not_eq_true]; exact this.1
    · rw [← not_lt, ← lt'_iff h2 fz, Bool.not_eq_true]; exact this.2
  have h0 := h.origin _ rfl c
  rw [show (⟨FArith.zero, FArith.zero, FArith.zero⟩ : Vec3 F64).comp c = FArith.zero by fin_cases c <;> rfl] at h0
  have k0 := key _ hz h0
  rw [vz] at k0
  exact ⟨h1, h2, k0.1, k0.2, fun x hx => key _ (fin x hx c) (h.covers x hx c)⟩

/-- The box of moved points. -/
theorem OriginBox.moved {d mn mx mn' mx' : Vec3 F64} {P P' : Vec3 F64 → Prop} (h : OriginBox mn mx P)
    (h' : OriginBox mn' mx' P') (fd : ∀ c, (d.comp c).isFin = true) (fin : ∀ x, P x → ∀ c, (x.comp c).isFin = true)
    (fin' : ∀ x, P' x → ∀ c, (x.comp c).isFin = true)
    (moved : ∀ x', P' x' ↔ ∃ x, P x ∧ ∀ c, x'.comp c = F64.add (x.comp c) (d.comp c)) :
    MovedBox d mn mx mn' mx' := by
  intro c
  have vz : (FArith.zero : F64).value = 0 := by decide +kernel
  obtain ⟨f1, f2, n0, p0, hin⟩ := h.values fin c
  obtain ⟨f1', f2', n0', p0', hin'⟩ := h'.values fin' c
  have there : ∀ x, P x → ∃ x', P' x' ∧ x'.comp c = F64.add (x.comp c) (d.comp c) := by
    intro x hx
    refine ⟨⟨F64.add (x.comp 0) (d.comp 0), F64.add (x.comp 1) (d.comp 1), F64.add (x.comp 2) (d.comp 2)⟩,
      (moved _).2 ⟨x, hx, fun c => by fin_cases c <;> rfl⟩, by fin_cases c <;> rfl⟩
  have up : (mx'.comp c).value ≤ max 0 (F64.add (mx.comp c) (d.comp c)).value := by
    rcases (h'.tight c).2 with e | ⟨x', hx', e⟩
    · rw [e, vz]; exact le_max_left _ _
    · obtain ⟨x, hx, e2⟩ := (moved x').1 hx'
      rw [e, e2 c]
      exact (add_mono (fin x hx c) f2 (fd c) (hin x hx).2).trans (le_max_right _ _)
  have down : min 0 (F64.add (mn.comp c) (d.comp c)).value ≤ (mn'.comp c).value := by
    rcases (h'.tight c).1 with e | ⟨x', hx', e⟩
    · rw [e, vz]; exact min_le_left _ _
    · obtain ⟨x, hx, e2⟩ := (moved x').1 hx'
      rw [e, e2 c]
      exact (min_le_right _ _).trans (add_mono f1 (fin x hx c) (fd c) (hin x hx).1)
  refine ⟨up, fun hp => le_antisymm up ?_, down, fun hn => le_antisymm ?_ down⟩
  · rcases (h.tight c).2 with e | ⟨x, hx, e⟩
    · rw [e, vz] at hp
      exact absurd hp (lt_irrefl _)
    · obtain ⟨x', hx', e2⟩ := there x hx
      rw [e, ← e2]
      exact max_le p0' (hin' x' hx').2
  · rcases (h.tight c).1 with e | ⟨x, hx, e⟩
    · rw [e, vz] at hn
      exact absurd hn (lt_irrefl _)
    · obtain ⟨x', hx', e2⟩ := there x hx
      rw [e, ← e2]
      exact le_min n0' (hin' x' hx').1

theorem forall₂_join {α β γ : Type} {R : α → β → Prop} {S : α → γ → Prop} {T : β → γ → Prop}
    (h : ∀ a b c, R a b → S a c → T b c) {l : List α} {r : List β} {t : List γ} (h1 : List.Forall₂ R l r)
    (h2 : List.Forall₂ S l t) : List.Forall₂ T r t := by
  induction h1 generalizing t with
  | nil => cases h2; exact .nil
  | cons hab _ ih =>
    cases h2 with
    | cons hac hs => exact .cons (h _ _ _ hab hac) (ih hs)

end Bf2
