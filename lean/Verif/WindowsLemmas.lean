import Verif.ObjectLemmas
import Verif.WindowsSpec

/-! # Lemmas about Windows paths -/

namespace Bf2

theorem slashed_sep {c : Char} (h : c = '\\' ∨ c = '/') : toSlash c = '/' := by
  rcases h with rfl | rfl <;> rfl

theorem toSlash_ne {c : Char} (h : ¬ (c = '\\' ∨ c = '/')) : toSlash c = c := by
  unfold toSlash
  rw [if_neg fun hc => h (.inl hc)]

theorem toSlash_ne_slash {c : Char} (h : ¬ (c = '\\' ∨ c = '/')) : toSlash c ≠ '/' := by
  rw [toSlash_ne h]
  exact fun hc => h (.inr hc)

theorem toSlash_dot (c : Char) : toSlash c = '.' ↔ c = '.' := by
  unfold toSlash
  split
  · rename_i h
    subst h
    decide
  · rfl

/-- Split at the last separator. -/
theorem sep_split (p : Str) : (∀ c ∈ p, ¬ (c = '\\' ∨ c = '/')) ∨
    ∃ a c b, p = a ++ c :: b ∧ (c = '\\' ∨ c = '/') ∧ ∀ x ∈ b, ¬ (x = '\\' ∨ x = '/') := by
  induction p with
  | nil => exact .inl (by simp)
  | cons x p ih =>
    rcases ih with h | ⟨a, c, b, rfl, hc, hb⟩
    · by_cases hx : x = '\\' ∨ x = '/'
      · exact .inr ⟨[], x, p, rfl, hx, h⟩
      · refine .inl fun c hc => ?_
        rcases List.mem_cons.1 hc with rfl | hc
        · exact hx
        · exact h c hc
    · exact .inr ⟨x :: a, c, b, rfl, hc, hb⟩

theorem rfind_lt {c x : Char} (a b : Str) (hx : c ≠ x) (h : c ∉ b) : rfind c (a ++ x :: b) < a.length := by
  by_cases ha : c ∈ a
  · obtain ⟨a1, a2, rfl, h2⟩ := last_split ha
    have e : a1 ++ c :: a2 ++ x :: b = a1 ++ c :: (a2 ++ x :: b) := by simp
    rw [e, rfind_append _ _ (by simp [hx, h, h2])]
    simp only [List.length_append, List.length_cons]
    omega
  · rw [rfind_none (by simp [hx, h, ha])]
    omega

theorem rfind_sep (p : Str) : max (rfind '\\' p) (rfind '/' p) = rfind '/' (slashed p) := by
  unfold slashed
  rcases sep_split p with h | ⟨a, c, b, rfl, hc, hb⟩
  · rw [rfind_none fun hm => h _ hm (.inl rfl), rfind_none fun hm => h _ hm (.inr rfl), rfind_none]
    · rfl
    · intro hm
      obtain ⟨x, hx, he⟩ := List.mem_map.1 hm
      exact toSlash_ne_slash (h x hx) he
  · have hb' : '/' ∉ b.map toSlash := by
      intro hm
      obtain ⟨x, hx, he⟩ := List.mem_map.1 hm
      exact toSlash_ne_slash (hb x hx) he
    rw [List.map_append, List.map_cons, slashed_sep hc, rfind_append _ _ hb', List.length_map]
    have h1 : '\\' ∉ b := fun hm => hb _ hm (.inl rfl)
    have h2 : '/' ∉ b := fun hm => hb _ hm (.inr rfl)
    rcases hc with rfl | rfl
    · rw [rfind_append _ _ h1]
      have := rfind_lt a b (c := '/') (x := '\\') (by decide) h2
      omega
    · rw [rfind_append _ _ h2]
      have := rfind_lt a b (c := '\\') (x := '/') (by decide) h1
      omega

theorem rfind_dot (p : Str) : rfind '.' (slashed p) = rfind '.' p := by
  unfold rfind slashed
  rw [← List.map_reverse, List.findIdx?_map, List.length_map]
  have : ((fun x => x == '.') ∘ toSlash) = fun x : Char => x == '.' := by
    funext c
    simp only [Function.comp_apply]
    rw [Bool.eq_iff_iff, beq_iff_eq, beq_iff_eq]
    exact toSlash_dot c
  rw [this]

theorem notOnlyDots_slashed (s : Str) : notOnlyDots (slashed s) = notOnlyDots s := by
  rw [Bool.eq_iff_iff, notOnlyDots_iff, notOnlyDots_iff]
  unfold slashed
  simp only [List.mem_map, exists_exists_and_eq_and, ne_eq, toSlash_dot]

theorem slashed_free {s : Str} (h : ∀ c ∈ s, ¬ (c = '\\' ∨ c = '/')) : slashed s = s := by
  unfold slashed
  conv => rhs; rw [← List.map_id s]
  exact List.map_congr_left fun c hc => toSlash_ne (h c hc)

/-- After the last separator. -/
theorem free_drop {p : Str} {n : Nat} (h : max (rfind '\\' p) (rfind '/' p) < n) :
    ∀ c ∈ p.drop n, ¬ (c = '\\' ∨ c = '/') := by
  rcases sep_split p with hp | ⟨a, c, b, rfl, hc, hb⟩
  · exact fun c hc => hp c (List.mem_of_mem_drop hc)
  · have hn : a.length < n := by
      have h1 : '\\' ∉ b := fun hm => hb _ hm (.inl rfl)
      have h2 : '/' ∉ b := fun hm => hb _ hm (.inr rfl)
      rcases hc with rfl | rfl
      · rw [rfind_append _ _ h1] at h
        omega
      · rw [rfind_append _ _ h2] at h
        omega
    obtain ⟨k, rfl⟩ : ∃ k, n = a.length + (k + 1) := ⟨n - a.length - 1, by omega⟩
    rw [← List.drop_drop, List.drop_left, List.drop_succ_cons]
    exact fun x hx => hb x (List.mem_of_mem_drop hx)

theorem pySlice_slashed (p : Str) (i j : Int) : pySlice (slashed p) i j = slashed (pySlice p i j) := by
  unfold pySlice slashed
  simp [List.map_drop, List.map_take]

theorem ntSplitextExt_eq (p : Str) : ntSplitextExt p = splitextExt (slashed p) := by
  unfold ntSplitextExt splitextExt
  simp only
  rw [← rfind_sep, rfind_dot, pySlice_slashed, notOnlyDots_slashed]
  split
  · rename_i h
    split
    · have hd : slashed (p.drop (rfind '.' p).toNat) = p.drop (rfind '.' p).toNat := by
        refine slashed_free (free_drop ?_)
        omega
      rw [← hd]
      unfold slashed
      rw [List.map_drop]
    · rfl
  · rfl

theorem unslashed {s t : Str} (h : slashed s = t) (ht : '/' ∉ t) : s = t := by
  rw [← h]
  refine (slashed_free fun c hc hs => ht ?_).symm
  rw [← h, ← slashed_sep hs]
  exact List.mem_map_of_mem hc

/-- An extension on Windows is one on POSIX. -/
theorem ext_of_slashed {p e : Str} (h : ExtOf (slashed p) e) : ExtOf p e := by
  obtain ⟨dir, base, s, hp, rfl, -, hb, hs, hdot, c, hc, hcd⟩ := h
  obtain ⟨p1, e0, rfl, h1, h2⟩ := List.map_eq_append_iff.1 hp
  obtain ⟨d0, b0, rfl, h3, h4⟩ := List.map_eq_append_iff.1 h1
  obtain rfl := unslashed h2 (by simp [hs])
  obtain rfl := unslashed h4 hb
  obtain ⟨dd, bb, rfl, hdd, hbb, -, -⟩ := dir_base d0
  exact ⟨dd, bb ++ b0, s, by simp, rfl, hdd, by simp [hb, hbb], hs, hdot, c, by simp [hc], hcd⟩

theorem meshExts_chars : ∀ t ∈ meshExts, (t ≠ [] ∧ t.head? = some '.' ∧ '.' ∉ t.tail) ∧
    ∀ c ∈ t, ('a' ≤ c ∧ c ≤ 'z') ∨ c = '.' := by decide

theorem flags_iff (x a b c d : Str) :
    (⟨x = a, x = b, x = c, x = d⟩ : Kind) ≠ noKind ↔ ∃ t ∈ [a, b, c, d], x = t := by
  unfold noKind
  rw [Ne, Kind.mk.injEq]
  simp only [decide_eq_false_iff_not, List.mem_cons, List.not_mem_nil, or_false, exists_eq_or_imp,
    exists_eq_left]
  constructor
  · intro h
    by_cases ha : x = a
    · exact .inl ha
    · by_cases hb : x = b
      · exact .inr (.inl hb)
      · by_cases hc : x = c
        · exact .inr (.inr (.inl hc))
        · exact .inr (.inr (.inr (by_contra fun hd => h ⟨ha, hb, hc, hd⟩)))
  · rintro (h | h | h | h) ⟨ha, hb, hc, hd⟩
    · exact ha h
    · exact hb h
    · exact hc h
    · exact hd h

theorem kind_iff (p : Str) : kindOfName p ≠ noKind ↔ ∃ t ∈ meshExts, SameName (splitextExt p) t := by
  unfold kindOfName
  rw [flags_iff]
  exact exists_congr fun t => and_congr_right fun ht => lower_iff _ _ (meshExts_chars t ht).2

theorem name_shape {e t : Str} (h : SameName e t) (ht : t ∈ meshExts) :
    ∃ s, e = '.' :: s ∧ '.' ∉ s ∧ '/' ∉ s ∧ '\\' ∉ s := by
  obtain ⟨⟨h0, h1, h2⟩, hc⟩ := meshExts_chars t ht
  rcases h with _ | @⟨a, b, l₁, l₂, hab, hr⟩
  · exact absurd rfl h0
  · simp only [List.head?_cons, Option.some.injEq] at h1
    subst h1
    have ha : a = '.' := by
      rcases hab with h | ⟨h, -⟩ | ⟨h, -⟩
      · exact h
      · exact absurd h (by decide)
      · exact absurd h (by decide)
    subst ha
    have hl : lower l₁ = l₂ := (lower_iff _ _ fun c h => hc c (List.mem_cons_of_mem _ h)).2 hr
    have key : ∀ x : Char, lowerChar x = x → x ∉ l₂ → x ∉ l₁ := by
      intro x hx hn hm
      apply hn
      rw [← hl, ← hx]
      exact List.mem_map_of_mem hm
    have hc' := fun c h => hc c (List.mem_cons_of_mem _ h)
    refine ⟨l₁, rfl, key _ (by decide) h2, key _ (by decide) fun hm => ?_, key _ (by decide) fun hm => ?_⟩
    · exact absurd (hc' _ hm) (by decide)
    · exact absurd (hc' _ hm) (by decide)

end Bf2
