import Verif.OldMod
import Verif.OldModSpec
import Verif.ObjectLemmas
import Mathlib.Order.Nat
import Mathlib.Data.Nat.Find

/-! # Lemmas about the patterns of `bf2.py` -/

namespace Bf2

theorem lit_some {l s r : Str} : lit l s = some r ↔ s = l ++ r := by
  unfold lit
  constructor
  · intro h
    split at h
    · next hl =>
      cases h
      conv => lhs; rw [← List.take_append_drop l.length s]
      rw [hl]
    · cases h
  · rintro rfl
    simp

theorem lit_none {l s : Str} : lit l s = none ↔ ¬ l <+: s := by
  constructor
  · rintro h ⟨r, rfl⟩
    rw [lit_some.2 rfl] at h
    cases h
  · intro h
    rcases hx : lit l s with _ | r
    · rfl
    · exact absurd ⟨r, (lit_some.1 hx).symm⟩ h

theorem anyChar_some {s r : Str} {c : Char} : anyChar s = some (c, r) ↔ s = c :: r ∧ c ≠ '\n' := by
  unfold anyChar
  constructor
  · intro h
    split at h
    · cases h
    · split at h
      · cases h
      · next hc => cases h; exact ⟨rfl, hc⟩
  · rintro ⟨rfl, h⟩
    simp [h]

section
variable {w : Char → Bool}

/-- The word at the beginning. -/
theorem takeWhile_word {n post : Str} (h : ∀ x ∈ n, w x = true) (hp : ∀ x, post.head? = some x → w x = false) :
    (n ++ post).takeWhile w = n := by
  induction n with
  | nil =>
    cases post with
    | nil => rfl
    | cons x xs => simp [hp x rfl]
  | cons x xs ih =>
    rw [List.cons_append, List.takeWhile_cons, h x (by simp)]
    simp only [if_true]
    rw [ih fun y hy => h y (by simp [hy])]

theorem dropWhile_word {n post : Str} (h : ∀ x ∈ n, w x = true) (hp : ∀ x, post.head? = some x → w x = false) :
    (n ++ post).dropWhile w = post := by
  induction n with
  | nil =>
    cases post with
    | nil => rfl
    | cons x xs => simp [hp x rfl]
  | cons x xs ih =>
    rw [List.cons_append, List.dropWhile_cons, h x (by simp)]
    simp only [if_true]
    exact ih fun y hy => h y (by simp [hy])

theorem word_split (s : Str) : s = s.takeWhile w ++ s.dropWhile w ∧ (∀ x ∈ s.takeWhile w, w x = true) ∧
    ∀ x, (s.dropWhile w).head? = some x → w x = false := by
  refine ⟨(List.takeWhile_append_dropWhile).symm, fun x hx => ?_, fun x hx => ?_⟩
  · have := List.all_takeWhile (p := w) (l := s)
    rw [List.all_eq_true] at this
    exact this x hx
  · have := List.head?_dropWhile_not w s
    rw [hx] at this
    simpa using this

theorem space_split {t t' a b : Str} (ht : ' ' ∉ t) (ht' : ' ' ∉ t') (h : t ++ ' ' :: a = t' ++ ' ' :: b) :
    t = t' ∧ a = b := by
  induction t generalizing t' with
  | nil =>
    cases t' with
    | nil => simpa using h
    | cons x xs => simp at h; simp [← h.1] at ht'
  | cons y ys ih =>
    cases t' with
    | nil => simp at h; simp [h.1] at ht
    | cons x xs =>
      simp only [List.cons_append, List.cons.injEq] at h
      obtain ⟨rfl, h⟩ := h
      obtain ⟨h1, h2⟩ := ih (by simp at ht; exact ht.2) (by simp at ht'; exact ht'.2) h
      exact ⟨by rw [h1], h2⟩

theorem matchTyped_iff {ts : List Str} (hts : ∀ t ∈ ts, ' ' ∉ t) {s m : Str} :
    matchTyped w ts s = some m ↔ ∃ t n post, t ∈ ts ∧ s = t ++ ' ' :: (n ++ post) ∧ n ≠ [] ∧
      (∀ x ∈ n, w x = true) ∧ (∀ x, post.head? = some x → w x = false) ∧ m = t ++ ' ' :: n := by
  induction ts with
  | nil => simp [matchTyped]
  | cons t ts ih =>
    have ih := ih fun t h => hts t (by simp [h])
    have h0 : ' ' ∉ t := hts t (by simp)
    unfold matchTyped
    rcases hl : lit (t ++ [' ']) s with _ | r
    · simp only
      rw [ih]
      constructor
      · rintro ⟨t', n, post, ht', h⟩
        exact ⟨t', n, post, by simp [ht'], h⟩
      · rintro ⟨t', n, post, ht', hs, h⟩
        rcases List.mem_cons.1 ht' with rfl | ht'
        · refine absurd ⟨n ++ post, ?_⟩ (lit_none.1 hl)
          rw [hs]; simp
        · exact ⟨t', n, post, ht', hs, h⟩
    · have hs : s = t ++ ' ' :: r := by rw [lit_some.1 hl]; simp
      simp only
      obtain ⟨e1, e2, e3⟩ := word_split (w := w) r
      rcases hr : r.takeWhile w with _ | ⟨x, xs⟩
      · simp only
        rw [ih]
        constructor
        · rintro ⟨t', n, post, ht', h⟩
          exact ⟨t', n, post, by simp [ht'], h⟩
        · rintro ⟨t', n, post, ht', hs', hn, hw, hp, hm⟩
          rcases List.mem_cons.1 ht' with rfl | ht'
          · rw [hs] at hs'
            obtain rfl := (space_split h0 h0 hs').2
            rw [takeWhile_word hw hp] at hr
            exact absurd hr hn
          · exact ⟨t', n, post, ht', hs', hn, hw, hp, hm⟩
      · simp only [Option.some.injEq]
        rw [hr] at e1 e2
        constructor
        · rintro rfl
          exact ⟨t, x :: xs, r.dropWhile w, by simp, by rw [hs]; conv => lhs; rw [e1], by simp, e2, e3, rfl⟩
        · rintro ⟨t', n, post, ht', hs', hn, hw, hp, rfl⟩
          rw [hs] at hs'
          obtain ⟨rfl, rfl⟩ := space_split h0 (hts t' ht') hs'
          rw [takeWhile_word hw hp] at hr
          rw [hr]

theorem objectTypes_iff {t : Str} : t ∈ objectTypes ↔ FoundType t := by
  simp only [objectTypes, FoundType, List.mem_cons, List.not_mem_nil, or_false]

theorem objectTypes_space : ∀ t ∈ objectTypes, ' ' ∉ t := by decide

/-- The text that was matched. -/
def createText (c : Char) (ty name : Str) : Str :=
  "ObjectTemplate".toList ++ c :: ("create ".toList ++ (ty ++ ' ' :: name))

theorem matchCreate_iff {s g : Str} : matchCreate w s = some g ↔
    ∃ c ty name, Creates w s c ty name ∧ g = createText c ty name := by
  unfold matchCreate Creates createText
  constructor
  · intro h
    split at h
    · cases h
    · next r hr =>
      split at h
      · cases h
      · next c r' hc =>
        split at h
        · cases h
        · next r'' hr'' =>
          split at h
          · cases h
          · next m hm =>
            cases h
            obtain ⟨t, n, post, ht, hs, hn, hw, hp, rfl⟩ := (matchTyped_iff objectTypes_space).1 hm
            obtain ⟨rfl, hnl⟩ := anyChar_some.1 hc
            rw [lit_some.1 hr, lit_some.1 hr'', hs]
            exact ⟨c, t, n, ⟨post, rfl, hnl, objectTypes_iff.1 ht, hn, hw, hp⟩, rfl⟩
  · rintro ⟨c, ty, name, ⟨post, rfl, hc, ht, hn, hw, hp⟩, rfl⟩
    rw [lit_some.2 rfl]
    simp only
    rw [anyChar_some.2 ⟨rfl, hc⟩]
    simp only
    rw [lit_some.2 rfl]
    simp only
    rw [(matchTyped_iff objectTypes_space).2 ⟨ty, name, post, objectTypes_iff.2 ht, rfl, hn, hw, hp, rfl⟩]

theorem search_some {α : Type} {m : Str → Option α} {s : Str} {x : α} : search m s = some x ↔
    ∃ pre r, s = pre ++ r ∧ m r = some x ∧
      ∀ pre' r', s = pre' ++ r' → pre'.length < pre.length → m r' = none := by
  induction s with
  | nil =>
    unfold search
    constructor
    · intro h
      exact ⟨[], [], rfl, h, by simp⟩
    · rintro ⟨pre, r, h, hr, -⟩
      obtain ⟨rfl, rfl⟩ := List.append_eq_nil_iff.1 h.symm
      exact hr
  | cons c s ih =>
    unfold search
    rcases hm : m (c :: s) with _ | y
    · simp only
      rw [ih]
      constructor
      · rintro ⟨pre, r, rfl, hr, hf⟩
        refine ⟨c :: pre, r, rfl, hr, fun pre' r' he hl => ?_⟩
        cases pre' with
        | nil => rw [List.nil_append] at he; rw [← he]; exact hm
        | cons y ys =>
          simp only [List.cons_append, List.cons.injEq] at he
          exact hf ys r' he.2 (by simpa using hl)
      · rintro ⟨pre, r, he, hr, hf⟩
        cases pre with
        | nil => rw [List.nil_append] at he; rw [← he, hm] at hr; cases hr
        | cons y ys =>
          simp only [List.cons_append, List.cons.injEq] at he
          obtain ⟨rfl, he⟩ := he
          exact ⟨ys, r, he, hr, fun pre' r' he' hl => hf (c :: pre') r' (by rw [he']; rfl) (by simpa using hl)⟩
    · simp only [Option.some.injEq]
      constructor
      · rintro rfl
        exact ⟨[], c :: s, rfl, hm, by simp⟩
      · rintro ⟨pre, r, he, hr, hf⟩
        cases pre with
        | nil =>
          rw [List.nil_append] at he
          rw [← he, hm] at hr
          injection hr
        | cons z zs =>
          have := hf [] (c :: s) rfl (by simp)
          rw [hm] at this
          cases this

theorem search_none {α : Type} {m : Str → Option α} {s : Str} : search m s = none ↔
    ∀ pre r, s = pre ++ r → m r = none := by
  induction s with
  | nil =>
    unfold search
    constructor
    · intro h pre r he
      obtain ⟨rfl, rfl⟩ := List.append_eq_nil_iff.1 he.symm
      exact h
    · intro h; exact h [] [] rfl
  | cons c s ih =>
    unfold search
    constructor
    · intro h pre r he
      split at h
      · cases h
      · next hm =>
        cases pre with
        | nil => rw [List.nil_append] at he; rw [← he]; exact hm
        | cons y ys =>
          simp only [List.cons_append, List.cons.injEq] at he
          exact ih.1 h ys r he.2
    · intro h
      rw [h [] (c :: s) rfl]
      simp only
      exact ih.2 fun pre r he => h (c :: pre) r (by rw [he]; rfl)

theorem matchCreate_none {s : Str} : matchCreate w s = none ↔ ∀ c t n, ¬ Creates w s c t n := by
  constructor
  · intro h c t n hc
    rw [matchCreate_iff.2 ⟨c, t, n, hc, rfl⟩] at h
    cases h
  · intro h
    rcases hx : matchCreate w s with _ | g
    · rfl
    · obtain ⟨c, t, n, hc, -⟩ := matchCreate_iff.1 hx
      exact absurd hc (h c t n)

theorem searchCreate_some {line g : Str} : search (matchCreate w) line = some g ↔
    ∃ c ty name, FirstCreate w line c ty name ∧ g = createText c ty name := by
  rw [search_some]
  simp only [matchCreate_none]
  constructor
  · rintro ⟨pre, r, he, hr, hf⟩
    obtain ⟨c, ty, name, hc, rfl⟩ := matchCreate_iff.1 hr
    exact ⟨c, ty, name, ⟨pre, r, he, hc, hf⟩, rfl⟩
  · rintro ⟨c, ty, name, ⟨pre, r, he, hc, hf⟩, rfl⟩
    exact ⟨pre, r, he, matchCreate_iff.2 ⟨c, ty, name, hc, rfl⟩, hf⟩

theorem searchCreate_none {line : Str} : search (matchCreate w) line = none ↔ NoCreate w line := by
  rw [search_none]
  simp only [matchCreate_none]
  rfl

/-- What a line creates: at most one command counts. -/
def LineCommand (w : Char → Bool) (line : Str) (p : List Str) : Prop :=
  (NoCreate w line ∧ p = []) ∨ ∃ c ty name, FirstCreate w line c ty name ∧ p = [createText c ty name]

/-! ## `include` -/

/-- The text that was matched. -/
def includeText (stem : Str) (c : Char) : Str := "include ".toList ++ (stem ++ c :: "tweak".toList)

/-- The name of the file it opens. -/
def includedFile (stem : Str) (c : Char) : Str := if c = ' ' then stem else stem ++ c :: "tweak".toList

theorem tweakAfter_iff {s : Str} {n : Nat} {g : Str} : tweakAfter s n = some g ↔
    ∃ k c post, 1 ≤ k ∧ k ≤ n ∧ s.drop k = c :: ("tweak".toList ++ post) ∧ c ≠ '\n' ∧
      g = s.take k ++ c :: "tweak".toList ∧
      ∀ k' c' post', k' ≤ n → s.drop k' = c' :: ("tweak".toList ++ post') → c' ≠ '\n' → k' ≤ k := by
  induction n with
  | zero =>
    simp only [tweakAfter, reduceCtorEq, false_iff]
    rintro ⟨k, c, post, h1, h2, -⟩
    omega
  | succ n ih =>
    have hb : ∀ c, ((anyChar (s.drop (n + 1))).bind fun p => (lit "tweak".toList p.2).map fun _ => p.1) = some c ↔
        ∃ post, s.drop (n + 1) = c :: ("tweak".toList ++ post) ∧ c ≠ '\n' := by
      intro c
      rw [Option.bind_eq_some_iff]
      constructor
      · rintro ⟨⟨d, r⟩, h1, h2⟩
        obtain ⟨post, h3, h4⟩ := Option.map_eq_some_iff.1 h2
        obtain ⟨h5, h6⟩ := anyChar_some.1 h1
        simp only at h3 h4
        subst h4
        exact ⟨post, by rw [h5, lit_some.1 h3], h6⟩
      · rintro ⟨post, h1, h2⟩
        exact ⟨(c, "tweak".toList ++ post), anyChar_some.2 ⟨h1, h2⟩, by simp only [lit_some.2 rfl]; rfl⟩
    unfold tweakAfter
    split
    · next c hc =>
      obtain ⟨post, h1, h2⟩ := (hb c).1 hc
      simp only [Option.some.injEq]
      constructor
      · rintro rfl
        exact ⟨n + 1, c, post, by omega, le_rfl, h1, h2, rfl, fun k' _ _ h _ _ => h⟩
      · rintro ⟨k, c', post', -, hk, h3, -, rfl, hmax⟩
        obtain rfl : k = n + 1 := le_antisymm hk (hmax _ c post le_rfl h1 h2)
        rw [h1] at h3
        rw [(List.cons.inj h3).1]
    · next hc =>
      rw [ih]
      have hno : ∀ c' post', s.drop (n + 1) = c' :: ("tweak".toList ++ post') → c' ≠ '\n' → False := by
        intro c' post' h1 h2
        rw [(hb c').2 ⟨post', h1, h2⟩] at hc
        cases hc
      constructor
      · rintro ⟨k, c, post, h1, h2, h3, h4, h5, h6⟩
        refine ⟨k, c, post, h1, by omega, h3, h4, h5, fun k' c' post' hk' hd hc' => ?_⟩
        rcases Nat.lt_or_ge k' (n + 1) with h | h
        · exact h6 k' c' post' (by omega) hd hc'
        · obtain rfl : k' = n + 1 := by omega
          exact (hno _ _ hd hc').elim
      · rintro ⟨k, c, post, h1, h2, h3, h4, h5, h6⟩
        rcases Nat.lt_or_ge k (n + 1) with h | h
        · exact ⟨k, c, post, h1, by omega, h3, h4, h5, fun k' c' p hk' => h6 k' c' p (by omega)⟩
        · obtain rfl : k = n + 1 := by omega
          exact (hno _ _ h3 h4).elim

theorem tweakAt_iff {r stem : Str} {c : Char} : TweakAt w ("include ".toList ++ r) stem c ↔
    ∃ post, 1 ≤ stem.length ∧ stem.length ≤ (r.takeWhile w).length ∧ stem = r.take stem.length ∧
      r.drop stem.length = c :: ("tweak".toList ++ post) ∧ c ≠ '\n' := by
  unfold TweakAt
  constructor
  · rintro ⟨⟨post, h⟩, hc, h0, hw⟩
    obtain rfl := List.append_cancel_left h
    refine ⟨post, List.length_pos_iff.2 h0, ?_, by simp, by simp, hc⟩
    have : stem <+: (stem ++ c :: ("tweak".toList ++ post)).takeWhile w := by
      rw [List.takeWhile_append_of_pos hw]
      exact List.prefix_append _ _
    exact this.length_le
  · rintro ⟨post, h1, h2, h3, h4, hc⟩
    refine ⟨⟨post, ?_⟩, hc, List.length_pos_iff.1 h1, fun x hx => ?_⟩
    · rw [← h4]
      conv => lhs; rw [← List.take_append_drop stem.length r, ← h3]
    · obtain ⟨e1, e2, -⟩ := word_split (w := w) r
      apply e2
      rw [h3] at hx
      rw [e1, List.take_append_of_le_length h2] at hx
      exact List.mem_of_mem_take hx

theorem matchInclude_iff {s g : Str} : matchInclude w s = some g ↔
    ∃ stem c, Includes w s stem c ∧ g = includeText stem c := by
  unfold matchInclude
  constructor
  · intro h
    split at h
    · cases h
    · next r hr =>
      obtain ⟨m, hm, rfl⟩ := Option.map_eq_some_iff.1 h
      obtain ⟨k, c, post, h1, h2, h3, h4, rfl, h6⟩ := tweakAfter_iff.1 hm
      obtain rfl := lit_some.1 hr
      have hk : k ≤ r.length := h2.trans (List.IsPrefix.length_le (List.takeWhile_prefix _))
      have hlen : (r.take k).length = k := by rw [List.length_take]; omega
      refine ⟨r.take k, c, ⟨tweakAt_iff.2 ⟨post, by omega, by omega, by rw [hlen], by rw [hlen]; exact h3, h4⟩,
        fun stem' c' ht => ?_⟩, rfl⟩
      obtain ⟨post', h1', h2', h3', h4', h5'⟩ := tweakAt_iff.1 ht
      rw [hlen]
      exact h6 _ c' post' h2' h4' h5'
  · rintro ⟨stem, c, ⟨ht, hmax⟩, rfl⟩
    obtain ⟨post0, hs⟩ := ht.1
    rw [hs, lit_some.2 rfl]
    simp only
    rw [hs] at ht hmax
    generalize stem ++ c :: ("tweak".toList ++ post0) = r at ht hmax ⊢
    obtain ⟨post, h1, h2, h3, h4, h5⟩ := tweakAt_iff.1 ht
    rw [tweakAfter_iff.2 ⟨stem.length, c, post, h1, h2, h4, h5, rfl, fun k' c' post' hk' hd hc' => ?_⟩]
    · rw [← h3]; rfl
    · rcases Nat.eq_zero_or_pos k' with rfl | hp
      · omega
      · have hk : k' ≤ r.length := hk'.trans (List.IsPrefix.length_le (List.takeWhile_prefix _))
        have hlen : (r.take k').length = k' := by rw [List.length_take]; omega
        have := hmax (r.take k') c' (tweakAt_iff.2 ⟨post', by omega, by omega, by rw [hlen],
          by rw [hlen]; exact hd, hc'⟩)
        omega

theorem matchInclude_none {s : Str} : matchInclude w s = none ↔ ∀ x d, ¬ TweakAt w s x d := by
  constructor
  · intro h x d ht
    -- the longest stem
    obtain ⟨post0, hs⟩ := ht.1
    generalize hr : x ++ d :: ("tweak".toList ++ post0) = r at hs
    subst hs
    have hex : ∃ n, ∃ stem c, TweakAt w ("include ".toList ++ r) stem c ∧ stem.length = n := ⟨_, x, d, ht, rfl⟩
    have hbd : ∀ n, (∃ stem c, TweakAt w ("include ".toList ++ r) stem c ∧ stem.length = n) → n ≤ r.length := by
      rintro n ⟨stem, c, hst, rfl⟩
      obtain ⟨_, -, h2, -⟩ := tweakAt_iff.1 hst
      exact h2.trans (List.IsPrefix.length_le (List.takeWhile_prefix _))
    classical
    obtain ⟨stem, c, hst, hn⟩ := Nat.findGreatest_spec (P := fun n => ∃ stem c,
      TweakAt w ("include ".toList ++ r) stem c ∧ stem.length = n) (hbd _ ⟨x, d, ht, rfl⟩) ⟨x, d, ht, rfl⟩
    have hmax : Includes w ("include ".toList ++ r) stem c := by
      refine ⟨hst, fun stem' c' h' => ?_⟩
      rw [hn]
      exact Nat.le_findGreatest (hbd _ ⟨stem', c', h', rfl⟩) ⟨stem', c', h', rfl⟩
    rw [matchInclude_iff.2 ⟨stem, c, hmax, rfl⟩] at h
    cases h
  · intro h
    rcases hx : matchInclude w s with _ | g
    · rfl
    · obtain ⟨stem, c, hi, -⟩ := matchInclude_iff.1 hx
      exact absurd hi.1 (h stem c)

theorem searchInclude_some {line g : Str} : search (matchInclude w) line = some g ↔
    ∃ stem c, FirstInclude w line stem c ∧ g = includeText stem c := by
  rw [search_some]
  simp only [matchInclude_none]
  constructor
  · rintro ⟨pre, r, he, hr, hf⟩
    obtain ⟨stem, c, hc, rfl⟩ := matchInclude_iff.1 hr
    exact ⟨stem, c, ⟨pre, r, he, hc, hf⟩, rfl⟩
  · rintro ⟨stem, c, ⟨pre, r, he, hc, hf⟩, rfl⟩
    exact ⟨pre, r, he, matchInclude_iff.2 ⟨stem, c, hc, rfl⟩, hf⟩

theorem searchInclude_none {line : Str} : search (matchInclude w) line = none ↔ NoInclude w line := by
  rw [search_none]
  simp only [matchInclude_none]
  rfl

theorem TweakAt.no_space (hw : w ' ' = false) {s stem : Str} {c : Char} (h : TweakAt w s stem c) :
    ' ' ∉ stem := by
  intro hs
  rw [h.2.2.2 _ hs] at hw
  cases hw

theorem includeText_word {stem : Str} {c : Char} (hs : ' ' ∉ stem) :
    wordAt (includeText stem c) 1 = .ok (includedFile stem c) := by
  unfold wordAt includeText includedFile
  rw [show "include ".toList ++ (stem ++ c :: "tweak".toList) =
    "include".toList ++ ' ' :: (stem ++ c :: "tweak".toList) from rfl,
    List.splitOn_append_cons_self, List.splitOn_eq_singleton (by decide)]
  by_cases hc : c = ' '
  · subst hc
    rw [List.splitOn_append_cons_self, List.splitOn_eq_singleton hs]
    rfl
  · rw [List.splitOn_eq_singleton]
    · simp [hc]
    · rw [List.mem_append, List.mem_cons]
      rintro (h | h | h)
      · exact hs h
      · exact hc h.symm
      · exact absurd h (by decide)

end

end Bf2
