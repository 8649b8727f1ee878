import Verif.Text
import Verif.TextSpec
import Verif.EditSpec

/-! # Lemmas about texts -/

namespace Bf2

theorem decimalValue_toDigits (n : Nat) : decimalValue (Nat.toDigits 10 n) = n := by
  have h := Nat.ofDigitChars_ten_toDigits (n := n)
  rw [Nat.ofDigitChars_eq_foldl] at h
  exact h

theorem toDigits_head (n : Nat) : (Nat.toDigits 10 n).head? = some '0' → Nat.toDigits 10 n = ['0'] := by
  induction n using Nat.strongRecOn with
  | ind n ih =>
    intro h
    by_cases hn : n < 10
    · rw [Nat.toDigits_of_lt_base hn] at h ⊢
      simpa using h
    · rw [Nat.toDigits_of_base_le (by decide) (by omega)] at h
      rw [List.head?_append_of_ne_nil _ Nat.toDigits_ne_nil] at h
      have := ih (n / 10) (by omega) h
      have hv := decimalValue_toDigits (n / 10)
      rw [this] at hv
      have : (0 : Nat) = n / 10 := hv
      omega

theorem toDigits_digits (n : Nat) : ∀ c ∈ Nat.toDigits 10 n, c.isDigit := fun _ h =>
  Nat.isDigit_of_mem_toDigits (by decide) (by decide) h

theorem intText_writes (n : Int) : WritesInt (intText n) n := by
  refine ⟨Nat.toDigits 10 n.natAbs, Nat.toDigits_ne_nil, toDigits_digits _, toDigits_head _, ?_⟩
  unfold intText
  rw [decimalValue_toDigits]
  split
  · exact .inr ⟨rfl, by omega, by omega⟩
  · exact .inl ⟨rfl, by omega⟩

theorem WritesInt.inj {s : Str} {n m : Int} (h : WritesInt s n) (h' : WritesInt s m) : n = m := by
  obtain ⟨ds, _, d, _, h⟩ := h
  obtain ⟨es, _, e, _, h'⟩ := h'
  rcases h with ⟨hs, hn⟩ | ⟨hs, hn, _⟩ <;> rcases h' with ⟨hs', hm⟩ | ⟨hs', hm, _⟩
  · rw [hn, hm, ← hs, hs']
  · have := d '-' (by rw [← hs, hs']; exact List.mem_cons_self ..)
    exact absurd this (by decide)
  · have := e '-' (by rw [← hs', hs]; exact List.mem_cons_self ..)
    exact absurd this (by decide)
  · rw [hs] at hs'
    rw [hn, hm, (List.cons.inj hs').2]

/-- The text of a number has neither line breaks nor commas nor brackets. -/
theorem WritesInt.chars {s : Str} {n : Int} (h : WritesInt s n) {c : Char} (hc : c ∈ s) : c.isDigit ∨ c = '-' := by
  obtain ⟨ds, _, d, _, h⟩ := h
  rcases h with ⟨hs, _⟩ | ⟨hs, _⟩ <;> rw [hs] at hc
  · exact .inl (d c hc)
  · rcases List.mem_cons.1 hc with h | h
    · exact .inr h
    · exact .inl (d c h)

theorem intText_free {c : Char} (hc : c.isDigit = false) (hm : c ≠ '-') (n : Int) : c ∉ intText n := by
  intro h
  rcases (intText_writes n).chars h with h | h
  · rw [hc] at h; cases h
  · exact hm h

theorem intText_inj {n m : Int} (h : intText n = intText m) : n = m :=
  (intText_writes n).inj (h ▸ intText_writes m)

theorem lookup_text (t k : Int) (v : String) (l : List (Int × String)) :
    (((k, v) :: l).lookup t).map String.toList =
      if t = k then some v.toList else (l.lookup t).map String.toList := by
  by_cases h : t = k
  · subst h; simp [List.lookup]
  · have : (t == k) = false := by simpa using h
    rw [if_neg h, List.lookup, this]

theorem typeName_eq (t : Int) : typeName t = (typeNames.lookup t).map String.toList := by
  unfold typeName typeNames
  simp only [lookup_text, List.lookup_nil, Option.map_none]

theorem usageName_eq (u : Int) : usageName u = (usageNames.lookup u).map String.toList := by
  unfold usageName usageNames
  simp only [lookup_text, List.lookup_nil, Option.map_none]

theorem typeName_none (t : Int) : typeName t = none ↔ typeFloats t = none := by
  unfold typeName
  constructor
  · intro h
    unfold typeFloats
    repeat' split at h
    all_goals cases h
    split <;> first | rfl | contradiction
  · intro h
    repeat' split
    all_goals first | rfl | (subst_vars; simp [typeFloats] at h)

theorem declLen_some (t : Int) : declLen t = match typeFloats t with
    | none => .error .valueError
    | some n => .ok n := by
  unfold declLen
  by_cases h : t = 0; · subst h; rfl
  by_cases h : t = 1; · subst h; rfl
  by_cases h : t = 2; · subst h; rfl
  by_cases h : t = 3; · subst h; rfl
  by_cases h : t = 4; · subst h; rfl
  by_cases h : t = 17; · subst h; rfl
  have hn : typeFloats t = none := by
    unfold typeFloats
    split <;> first | rfl | contradiction
  simp [*]

theorem usageName_none (u : Int) : usageName u = none ↔ ¬ KnownUsage u := by
  unfold KnownUsage
  simp only [List.mem_cons, List.not_mem_nil, or_false]
  by_cases h : 0 ≤ u ∧ u ≤ 13
  · refine ⟨fun hn => ?_, fun hn => absurd (.inl h) hn⟩
    obtain ⟨k, rfl⟩ := Int.eq_ofNat_of_zero_le h.1
    have known : ∀ k < 14, usageName (k : Nat) ≠ none := by decide +kernel
    exact absurd hn (known k (by omega))
  by_cases h1 : u = 261; · subst h1; decide
  by_cases h2 : u = 517; · subst h2; decide
  by_cases h3 : u = 773; · subst h3; decide
  by_cases h4 : u = 1029; · subst h4; decide
  refine ⟨fun _ => by simp only [h, h1, h2, h3, h4, or_self, not_false_eq_true], fun _ => ?_⟩
  have : ∀ k : Int, 0 ≤ k → k ≤ 13 → u ≠ k := by intro k h0 h1 hk; omega
  unfold usageName
  simp [this, h1, h2, h3, h4]

theorem mem_of_lookup {t : Int} {v : String} : ∀ {l : List (Int × String)}, l.lookup t = some v → (t, v) ∈ l
  | [], h => by cases h
  | (k, w) :: l, h => by
    rw [List.lookup] at h
    split at h
    · next hk =>
      cases h
      have : t = k := by simpa using hk
      rw [this]
      exact List.mem_cons_self ..
    · exact List.mem_cons_of_mem _ (mem_of_lookup h)

theorem typeName_mem {t : Int} {s : Str} (h : typeName t = some s) : ∃ v, (t, v) ∈ typeNames ∧ v.toList = s := by
  rw [typeName_eq, Option.map_eq_some_iff] at h
  obtain ⟨v, h, hv⟩ := h
  exact ⟨v, mem_of_lookup h, hv⟩

theorem usageName_mem {u : Int} {s : Str} (h : usageName u = some s) :
    ∃ v, (u, v) ∈ usageNames ∧ v.toList = s := by
  rw [usageName_eq, Option.map_eq_some_iff] at h
  obtain ⟨v, h, hv⟩ := h
  exact ⟨v, mem_of_lookup h, hv⟩

theorem typeName_free {t : Int} {s : Str} (h : typeName t = some s) : ',' ∉ s ∧ ' ' ∉ s := by
  obtain ⟨v, hm, rfl⟩ := typeName_mem h
  have all : ∀ p ∈ typeNames, ',' ∉ p.2.toList ∧ ' ' ∉ p.2.toList := by decide +kernel
  exact all _ hm

theorem usageName_free {u : Int} {s : Str} (h : usageName u = some s) : ',' ∉ s := by
  obtain ⟨v, hm, rfl⟩ := usageName_mem h
  have all : ∀ p ∈ usageNames, ',' ∉ p.2.toList := by decide +kernel
  exact all _ hm

theorem typeName_inj {u v : Int} {s : Str} (hu : typeName u = some s) (hv : typeName v = some s) : u = v := by
  obtain ⟨a, ha, h1⟩ := typeName_mem hu
  obtain ⟨b, hb, h2⟩ := typeName_mem hv
  have all : ∀ p ∈ typeNames, ∀ q ∈ typeNames, p.2 = q.2 → p.1 = q.1 := by decide +kernel
  exact all _ ha _ hb (String.toList_inj.1 (h1.trans h2.symm))

theorem usageName_inj {u v : Int} {s : Str} (hu : usageName u = some s) (hv : usageName v = some s) : u = v := by
  obtain ⟨a, ha, h1⟩ := usageName_mem hu
  obtain ⟨b, hb, h2⟩ := usageName_mem hv
  have all : ∀ p ∈ usageNames, ∀ q ∈ usageNames, p.2 = q.2 → p.1 = q.1 := by decide +kernel
  exact all _ ha _ hb (String.toList_inj.1 (h1.trans h2.symm))

theorem typeText_ok {py311 : Bool} {t : Int} {s : Str} (h : typeText py311 t = .ok s) :
    ∃ name, typeName t = some name ∧ s = if py311 then intText t else "D3DDECLTYPE.".toList ++ name := by
  unfold typeText at h
  rcases hn : typeName t with _ | name
  · rw [hn] at h; cases h
  · rw [hn] at h
    exact ⟨name, rfl, (Except.ok.inj h).symm⟩

theorem typeText_free {py311 : Bool} {t : Int} {s : Str} (h : typeText py311 t = .ok s) : ',' ∉ s ∧ ' ' ∉ s := by
  obtain ⟨name, hn, rfl⟩ := typeText_ok h
  cases py311
  · rw [if_neg (by decide)]
    have := typeName_free hn
    simp only [List.mem_append, not_or]
    exact ⟨⟨by decide, this.1⟩, by decide, this.2⟩
  · exact ⟨intText_free (by decide) (by decide) _, intText_free (by decide) (by decide) _⟩

theorem typeText_inj {py311 : Bool} {t u : Int} {s : Str} (h : typeText py311 t = .ok s)
    (h' : typeText py311 u = .ok s) : t = u := by
  obtain ⟨name, hn, hs⟩ := typeText_ok h
  obtain ⟨name', hn', hs'⟩ := typeText_ok h'
  rw [hs] at hs'
  cases py311
  · rw [if_neg (by decide), if_neg (by decide)] at hs'
    have := List.append_cancel_left hs'
    exact typeName_inj (this ▸ hn) hn'
  · exact intText_inj hs'

theorem fourText (a b c d : Int) : WritesFour ('(' :: (intText a ++ ", ".toList ++ intText b ++ ", ".toList ++
    intText c ++ ", ".toList ++ intText d ++ [')'])) a b c d := by
  refine ⟨_, intText a, intText b, intText c, intText d, rfl, ?_, intText_writes _, intText_writes _,
    intText_writes _, intText_writes _⟩
  have hi : intText a ++ ", ".toList ++ intText b ++ ", ".toList ++ intText c ++ ", ".toList ++ intText d =
      [','].intercalate [intText a, ' ' :: intText b, ' ' :: intText c, ' ' :: intText d] := by
    simp [List.intercalate, List.intersperse]
  rw [hi]
  refine List.splitOn_intercalate ',' ?_ (by simp)
  have free := fun n => intText_free (c := ',') (by decide) (by decide) n
  intro l hl
  simp only [List.mem_cons, List.not_mem_nil, or_false] at hl
  rcases hl with rfl | rfl | rfl | rfl
  · exact free _
  all_goals
    rw [List.mem_cons, not_or]
    exact ⟨by decide, free _⟩

theorem WritesFour.inj {s : Str} {a b c d a' b' c' d' : Int} (h : WritesFour s a b c d)
    (h' : WritesFour s a' b' c' d') : a = a' ∧ b = b' ∧ c = c' ∧ d = d' := by
  obtain ⟨i, s1, s2, s3, s4, hs, hi, h1, h2, h3, h4⟩ := h
  obtain ⟨i', t1, t2, t3, t4, hs', hi', h1', h2', h3', h4'⟩ := h'
  rw [hs] at hs'
  have := List.append_cancel_right (List.cons.inj hs').2
  subst this
  rw [hi] at hi'
  simp only [List.cons.injEq, and_true, true_and] at hi'
  obtain ⟨rfl, rfl, rfl, rfl⟩ := hi'
  exact ⟨h1.inj h1', h2.inj h2', h3.inj h3', h4.inj h4'⟩

/-- A list is determined by the part in front of the first separator and the part behind. -/
theorem cut_eq {c : Char} {a b x y : Str} (ha : c ∉ a) (hb : c ∉ b) (h : a ++ c :: x = b ++ c :: y) :
    a = b ∧ x = y := by
  induction a generalizing b with
  | nil =>
    cases b with
    | nil => exact ⟨rfl, (List.cons.inj h).2⟩
    | cons d b => exact absurd (List.cons.inj h).1 (fun e => hb (e ▸ List.mem_cons_self ..))
  | cons d a ih =>
    cases b with
    | nil => exact absurd (List.cons.inj h).1 (fun e => ha (e ▸ List.mem_cons_self ..))
    | cons d' b =>
      obtain ⟨h1, h2⟩ := List.cons.inj h
      obtain ⟨h3, h4⟩ := ih (fun m => ha (List.mem_cons_of_mem _ m)) (fun m => hb (List.mem_cons_of_mem _ m)) h2
      exact ⟨by rw [h1, h3], h4⟩

end Bf2
