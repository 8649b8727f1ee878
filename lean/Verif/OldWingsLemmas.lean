import Verif.OldWings
import Verif.OldWingsSpec
import Verif.OldModLemmas
import Verif.OldSettingsLemmas

/-! # Lemmas about `get_wings` -/

namespace Bf2

variable {w : Char → Bool}

theorem digits_some {s d r : Str} : digits s = some (d, r) ↔
    Digits d ∧ s = d ++ r ∧ ∀ x, r.head? = some x → x.isDigit = false := by
  constructor
  · intro h
    obtain ⟨h1, h2, h3⟩ := word_split (w := Char.isDigit) s
    unfold digits at h
    split at h
    · cases h
    · next hd =>
      obtain ⟨rfl, rfl⟩ := Prod.mk.inj (Option.some.inj h)
      exact ⟨⟨fun e => hd e, fun c hc => isDigit_iff.1 (h2 c hc)⟩, h1, h3⟩
  · rintro ⟨h1, rfl, h3⟩
    exact digits_of h1 h3

theorem notDigit_iff {x : Char} : ¬ ('0' ≤ x ∧ x ≤ '9') ↔ x.isDigit = false := by
  rw [← isDigit_iff, Bool.not_eq_true]

theorem liftSign_spec (s : Str) : s = (liftSign s).1 ++ (liftSign s).2 ∧
    (liftSign s).1 ∈ [[], ['-'], ['+']] := by
  unfold liftSign
  rcases s with _ | ⟨c, r⟩
  · simp
  · simp only
    split
    · next h => rcases h with rfl | rfl <;> simp
    · simp

theorem liftSign_of {sign r : Str} (h : sign ∈ [[], ['-'], ['+']])
    (hr : ∀ x, r.head? = some x → x ≠ '-' ∧ x ≠ '+') : liftSign (sign ++ r) = (sign, r) := by
  simp only [List.mem_cons, List.not_mem_nil, or_false] at h
  rcases h with rfl | rfl | rfl
  · rcases r with _ | ⟨c, r⟩
    · rfl
    · have := hr c rfl
      simp [liftSign, this.1, this.2]
  · simp [liftSign]
  · simp [liftSign]

/-- The decimal alternative. -/
theorem decimal_iff {s num : Str} : DecimalAt s num ↔
    ∃ b r, (lit ".".toList ((liftSign s).2.dropWhile Char.isDigit)).bind digits = some (b, r) ∧
      num = (liftSign s).1 ++ ((liftSign s).2.takeWhile Char.isDigit ++ '.' :: b) := by
  constructor
  · rintro ⟨⟨post, rfl, hp⟩, sign, a, b, rfl, hs, ha, hb⟩
    have hdig : ∀ x ∈ a, x.isDigit = true := by
      rcases ha with rfl | ha
      · simp
      · exact ha.isDigit
    have hh : ∀ x, (a ++ '.' :: (b ++ post)).head? = some x → x ≠ '-' ∧ x ≠ '+' := by
      intro x hx
      rcases a with _ | ⟨y, ys⟩
      · simp at hx; subst hx; decide
      · simp at hx; subst hx
        have := hdig y (by simp)
        constructor <;> (rintro rfl; revert this; decide)
    have e : liftSign (sign ++ (a ++ '.' :: b) ++ post) = (sign, a ++ '.' :: (b ++ post)) := by
      rw [List.append_assoc, List.append_assoc, List.cons_append]
      exact liftSign_of hs hh
    have hdot : ∀ x, ('.' :: (b ++ post)).head? = some x → x.isDigit = false := by
      intro x hx; simp at hx; subst hx; decide
    rw [e]
    simp only
    rw [takeWhile_word hdig hdot, dropWhile_word hdig hdot]
    have : lit ".".toList ('.' :: (b ++ post)) = some (b ++ post) := lit_some.2 rfl
    rw [this, Option.bind_some, digits_of hb (fun x hx => notDigit_iff.1 (hp x hx))]
    exact ⟨b, post, rfl, rfl⟩
  · rintro ⟨b, r, h, rfl⟩
    obtain ⟨h1, h2⟩ := liftSign_spec s
    rcases hl : lit ".".toList ((liftSign s).2.dropWhile Char.isDigit) with _ | r'
    · rw [hl] at h; cases h
    rw [hl, Option.bind_some] at h
    obtain ⟨hb, rfl, hr⟩ := digits_some.1 h
    obtain ⟨k1, k2, -⟩ := word_split (w := Char.isDigit) (liftSign s).2
    have e := lit_some.1 hl
    refine ⟨⟨r, ?_, fun x hx => notDigit_iff.2 (hr x hx)⟩, _, _, b, rfl, h2, ?_, hb⟩
    · conv_lhs => rw [h1, k1, e]
      simp
    · by_cases ht : (liftSign s).2.takeWhile Char.isDigit = []
      · exact .inl ht
      · exact .inr ⟨ht, fun c hc => isDigit_iff.1 (k2 c hc)⟩

theorem matchLift_iff {s num : Str} : matchLift s = some num ↔ LiftAt s num := by
  unfold matchLift LiftAt
  simp only
  rcases hd : (lit ".".toList ((liftSign s).2.dropWhile Char.isDigit)).bind digits with _ | ⟨b, r⟩
  · have hno : ∀ n, ¬ DecimalAt s n := by
      intro n hn
      obtain ⟨b, r, h, -⟩ := decimal_iff.1 hn
      rw [hd] at h; cases h
    simp only
    constructor
    · intro h
      rcases hg : digits s with _ | ⟨d, r⟩
      · rw [hg] at h; cases h
      · rw [hg] at h
        obtain rfl := Option.some.inj h
        obtain ⟨k1, k2, k3⟩ := digits_some.1 hg
        exact .inr ⟨hno, k1, r, k2, fun x hx => notDigit_iff.2 (k3 x hx)⟩
    · rintro (h | ⟨-, h1, r, rfl, h3⟩)
      · exact absurd h (hno _)
      · rw [digits_of h1 (fun x hx => notDigit_iff.1 (h3 x hx))]
        rfl
  · simp only
    have hyes := decimal_iff (s := s) (num := (liftSign s).1 ++
      ((liftSign s).2.takeWhile Char.isDigit ++ '.' :: b)) |>.2 ⟨b, r, hd, rfl⟩
    constructor
    · intro h
      obtain rfl := Option.some.inj h
      exact .inl hyes
    · rintro (h | ⟨h, -⟩)
      · obtain ⟨b', r', h1, rfl⟩ := decimal_iff.1 h
        rw [hd] at h1
        obtain ⟨rfl, -⟩ := Prod.mk.inj (Option.some.inj h1)
        rfl
      · exact absurd hyes (h _)

theorem matchNamed_iff {l s g : Str} : matchNamed w l s = some g ↔
    ∃ n post, s = l ++ (n ++ post) ∧ n ≠ [] ∧ (∀ x ∈ n, w x = true) ∧
      (∀ x, post.head? = some x → w x = false) ∧ g = l ++ n := by
  unfold matchNamed
  constructor
  · intro h
    split at h
    · cases h
    · next r hr =>
      obtain ⟨h1, h2, h3⟩ := word_split (w := w) r
      split at h
      · cases h
      · next n hn =>
        obtain rfl := Option.some.inj h
        exact ⟨_, _, (lit_some.1 hr).trans (by rw [← h1]), hn, h2, h3, rfl⟩
  · rintro ⟨n, post, rfl, hn, h2, h3, rfl⟩
    rw [lit_some.2 rfl]
    simp only
    rw [takeWhile_word h2 h3]
    rcases n with _ | ⟨x, xs⟩
    · exact absurd rfl hn
    · rfl

theorem matchSet_iff {l s g : Str} : matchSet l s = some g ↔
    ∃ r n, s = l ++ r ∧ LiftAt r n ∧ g = l ++ n := by
  unfold matchSet
  constructor
  · intro h
    split at h
    · cases h
    · next r hr =>
      rw [Option.map_eq_some_iff] at h
      obtain ⟨n, hn, rfl⟩ := h
      exact ⟨r, n, lit_some.1 hr, matchLift_iff.1 hn, rfl⟩
  · rintro ⟨r, n, rfl, hn, rfl⟩
    rw [lit_some.2 rfl]
    simp only
    rw [matchLift_iff.2 hn]
    rfl

theorem matchNamed_other {l s : Str} (h : lit l s = none) : matchNamed w l s = none := by
  unfold matchNamed; rw [h]

theorem matchSet_other {l s : Str} (h : lit l s = none) : matchSet l s = none := by
  unfold matchSet; rw [h]

theorem wingTail_iff {s g : Str} : wingTail w s = some g ↔
    matchNamed w "create Wing ".toList s = some g ∨ matchNamed w "activeSafe Wing ".toList s = some g ∨
    matchSet "setWingLift ".toList s = some g ∨ matchSet "setFlapLift ".toList s = some g := by
  have hlit : ∀ l l' r : Str, ¬ l <+: l' ++ r → lit l (l' ++ r) = none := fun l l' r h => lit_none.2 h
  constructor
  · intro h
    unfold wingTail at h
    split at h
    · next e => cases h; exact .inl e
    · split at h
      · next e => cases h; exact .inr (.inl e)
      · split at h
        · next e => cases h; exact .inr (.inr (.inl e))
        · exact .inr (.inr (.inr h))
  · intro h
    unfold wingTail
    rcases h with h | h | h | h
    · rw [h]
    · obtain ⟨n, post, rfl, -⟩ := matchNamed_iff.1 h
      rw [matchNamed_other (l := "create Wing ".toList) (lit_none.2 (by simp)), h]
    · obtain ⟨r, n, rfl, -⟩ := matchSet_iff.1 h
      rw [matchNamed_other (l := "create Wing ".toList) (lit_none.2 (by simp)),
        matchNamed_other (l := "activeSafe Wing ".toList) (lit_none.2 (by simp)), h]
    · obtain ⟨r, n, rfl, -⟩ := matchSet_iff.1 h
      rw [matchNamed_other (l := "create Wing ".toList) (lit_none.2 (by simp)),
        matchNamed_other (l := "activeSafe Wing ".toList) (lit_none.2 (by simp)),
        matchSet_other (l := "setWingLift ".toList) (lit_none.2 (by simp)), h]

theorem matchWing_iff {s g : Str} : matchWing w s = some g ↔ WingAt w s g := by
  constructor
  · intro h
    unfold matchWing at h
    split at h
    · cases h
    · next r hr =>
      split at h
      · cases h
      · next c r' hc =>
        rw [Option.map_eq_some_iff] at h
        obtain ⟨t, ht, rfl⟩ := h
        obtain ⟨rfl, hnl⟩ := anyChar_some.1 hc
        rw [lit_some.1 hr]
        rcases wingTail_iff.1 ht with h | h | h | h
        · obtain ⟨n, post, rfl, hn, h2, h3, rfl⟩ := matchNamed_iff.1 h
          exact WingAt.wing (verb := "create".toList) hnl (.inl rfl) hn h2 h3
        · obtain ⟨n, post, rfl, hn, h2, h3, rfl⟩ := matchNamed_iff.1 h
          exact WingAt.wing (verb := "activeSafe".toList) hnl (.inr rfl) hn h2 h3
        · obtain ⟨r, n, rfl, hn, rfl⟩ := matchSet_iff.1 h
          exact WingAt.lift hnl (.inl rfl) hn
        · obtain ⟨r, n, rfl, hn, rfl⟩ := matchSet_iff.1 h
          exact WingAt.lift hnl (.inr rfl) hn
  · intro h
    unfold matchWing
    cases h with
    | @wing c verb name post hc hv hn hw hp =>
      rw [lit_some.2 rfl]
      simp only
      rw [anyChar_some.2 ⟨rfl, hc⟩]
      simp only
      rcases hv with rfl | rfl
      · rw [show "create".toList ++ (" Wing ".toList ++ (name ++ post)) =
          "create Wing ".toList ++ (name ++ post) from rfl,
          wingTail_iff.2 (.inl (matchNamed_iff.2 ⟨name, post, rfl, hn, hw, hp, rfl⟩))]
        rfl
      · rw [show "activeSafe".toList ++ (" Wing ".toList ++ (name ++ post)) =
          "activeSafe Wing ".toList ++ (name ++ post) from rfl,
          wingTail_iff.2 (.inr (.inl (matchNamed_iff.2 ⟨name, post, rfl, hn, hw, hp, rfl⟩)))]
        rfl
    | @lift c what num s hc hv hn =>
      rw [lit_some.2 rfl]
      simp only
      rw [anyChar_some.2 ⟨rfl, hc⟩]
      simp only
      rcases hv with rfl | rfl
      · rw [wingTail_iff.2 (.inr (.inr (.inl (matchSet_iff.2 ⟨s, num, rfl, hn, rfl⟩))))]
        rfl
      · rw [wingTail_iff.2 (.inr (.inr (.inr (matchSet_iff.2 ⟨s, num, rfl, hn, rfl⟩))))]
        rfl

theorem matchWing_none {s : Str} : matchWing w s = none ↔ ∀ g, ¬ WingAt w s g := by
  constructor
  · intro h g hg
    rw [matchWing_iff.2 hg] at h; cases h
  · intro h
    rcases hm : matchWing w s with _ | g
    · rfl
    · exact absurd (matchWing_iff.1 hm) (h g)

theorem searchWing_some {line g : Str} : search (matchWing w) line = some g ↔ FirstWing w line g := by
  rw [search_some]
  simp only [matchWing_none, matchWing_iff]
  rfl

theorem searchWing_none {line : Str} : search (matchWing w) line = none ↔ NoWing w line := by
  rw [search_none]
  simp only [matchWing_none]
  rfl

theorem lineWing_iff {line : Str} {p : List Str} :
    LineWing w line p ↔ p = (search (matchWing w) line).toList := by
  unfold LineWing
  rcases hs : search (matchWing w) line with _ | g
  · have h := searchWing_none.1 hs
    constructor
    · rintro (⟨-, rfl⟩ | ⟨g, hg, -⟩)
      · rfl
      · rw [searchWing_some.2 hg] at hs; cases hs
    · rintro rfl
      exact .inl ⟨h, rfl⟩
  · have h := searchWing_some.1 hs
    constructor
    · rintro (⟨hn, -⟩ | ⟨g', hg, rfl⟩)
      · rw [searchWing_none.2 hn] at hs; cases hs
      · rw [searchWing_some.2 hg] at hs
        obtain rfl := Option.some.inj hs
        rfl
    · rintro rfl
      exact .inr ⟨g, h, rfl⟩

theorem tweakWings_iff {lines out : List Str} :
    (∃ parts, List.Forall₂ (LineWing w) lines parts ∧ out = parts.flatten) ↔
      out = tweakWings w lines := by
  unfold tweakWings
  induction lines generalizing out with
  | nil => simp
  | cons l ls ih =>
    constructor
    · rintro ⟨parts, h, rfl⟩
      cases h with
      | cons h1 h2 =>
        rw [List.flatten_cons, lineWing_iff.1 h1, ih.1 ⟨_, h2, rfl⟩]
        rcases hs : search (matchWing w) l with _ | g <;> simp [hs]
    · rintro rfl
      obtain ⟨ps, h1, h2⟩ := ih.2 rfl
      refine ⟨_ :: ps, .cons (lineWing_iff.2 rfl) h1, ?_⟩
      rw [List.flatten_cons, ← h2]
      rcases hs : search (matchWing w) l with _ | g <;> simp [hs]

end Bf2
