import Verif.WinDir
import Verif.WindowsLemmas
import Mathlib.Data.List.TakeWhile

/-! # Lemmas on directories of Windows paths -/

namespace Bf2

theorem ntIsSep_iff {c : Char} : ntIsSep c = true ↔ c = '\\' ∨ c = '/' := by
  unfold ntIsSep
  simp

theorem ntIsSep_false {c : Char} : ntIsSep c = false ↔ ¬ (c = '\\' ∨ c = '/') := by
  rw [← ntIsSep_iff, Bool.not_eq_true]

theorem ntHead_of {a b : Str} {c : Char} (hc : ntIsSep c = true) (hb : ∀ x ∈ b, ntIsSep x = false) :
    ntHead (a ++ c :: b) = a ++ [c] := by
  unfold ntHead
  rw [List.reverse_append, List.reverse_cons, List.append_assoc,
    List.dropWhile_append_of_pos (by intro x hx; simp [hb x (List.mem_reverse.1 hx)])]
  simp [hc]

theorem ntHead_free {b : Str} (hb : ∀ x ∈ b, ntIsSep x = false) : ntHead b = [] := by
  unfold ntHead
  have : b.reverse.dropWhile (fun c => !ntIsSep c) = [] := by
    rw [List.dropWhile_eq_nil_iff]
    intro x hx
    simp [hb x (List.mem_reverse.1 hx)]
  rw [this]
  rfl

theorem ntRstrip_last {a : Str} {x : Char} (hx : ntIsSep x = false) : ntRstrip (a ++ [x]) = a ++ [x] := by
  unfold ntRstrip
  simp [hx]

theorem ntRstrip_sep {a : Str} {x : Char} (hx : ntIsSep x = true) : ntRstrip (a ++ [x]) = ntRstrip a := by
  unfold ntRstrip
  simp [hx]

theorem ntRstrip_cons {x y : Char} {s : Str} (hy : y ∈ x :: s) (hs : ntIsSep y = false) :
    ntRstrip (x :: s) = x :: ntRstrip s := by
  induction s using List.reverseRecOn with
  | nil =>
    obtain rfl : y = x := by simpa using hy
    unfold ntRstrip
    simp [hs]
  | append_singleton s z ih =>
    cases hz : ntIsSep z
    · rw [← List.cons_append, ntRstrip_last hz, ntRstrip_last hz]
      rfl
    · rw [← List.cons_append, ntRstrip_sep hz, ntRstrip_sep hz]
      refine ih ?_
      simp only [List.mem_cons, List.mem_append, List.not_mem_nil, or_false] at hy ⊢
      rcases hy with h | h | rfl
      · exact .inl h
      · exact .inr h
      · rw [hs] at hz; cases hz

theorem rstrip_slashed (s : Str) : rstrip '/' (slashed s) = slashed (ntRstrip s) := by
  have hf : ∀ c, (toSlash c == '/') = ntIsSep c := by
    intro c
    by_cases hc : c = '\\' ∨ c = '/'
    · rw [slashed_sep hc, ntIsSep_iff.2 hc]
      rfl
    · rw [ntIsSep_false.2 hc]
      simpa using toSlash_ne_slash hc
  unfold rstrip ntRstrip slashed
  rw [← List.map_reverse, List.dropWhile_map, List.map_reverse]
  congr 2
  exact congrArg (fun f => s.reverse.dropWhile f) (funext hf)

theorem norm_take (p : Str) (n : Nat) : ((ntNorm p).drop n).take 1 = ['\\'] ↔ ∃ c, p[n]? = some c ∧ ntIsSep c = true := by
  unfold ntNorm
  rw [List.take_one, List.head?_drop, List.getElem?_map]
  cases h : p[n]? with
  | none => simp
  | some c =>
    simp only [Option.map_some, Option.toList_some, List.cons.injEq, and_true, Option.some.injEq, exists_eq_left']
    rw [ntIsSep_iff]
    split <;> simp_all

theorem norm_colon (p : Str) (n : Nat) : ((ntNorm p).drop n).take 1 = [':'] ↔ p[n]? = some ':' := by
  unfold ntNorm
  rw [List.take_one, List.head?_drop, List.getElem?_map]
  cases h : p[n]? with
  | none => simp
  | some c =>
    simp only [Option.map_some, Option.toList_some, List.cons.injEq, and_true, Option.some.injEq]
    split
    · next hc => subst hc; decide
    · rfl

/-- A path that begins with one separator. -/
theorem dir_rooted {s : Char} {t : Str} (hs : ntIsSep s = true) (ht : ∀ c, t[0]? = some c → ntIsSep c = false) :
    ntDirname (s :: t) = s :: ntRstrip (ntHead t) := by
  have h1 : (ntNorm (s :: t)).take 1 = ['\\'] := (norm_take (s :: t) 0).2 ⟨s, rfl, hs⟩
  have h2 : ((ntNorm (s :: t)).drop 1).take 1 ≠ ['\\'] := by
    intro h
    obtain ⟨c, hc, hc'⟩ := (norm_take (s :: t) 1).1 h
    rw [ht c hc] at hc'
    cases hc'
  unfold ntDirname ntSplitroot
  simp only
  rw [if_pos h1, if_neg h2]
  rfl

/-- A path with a drive and a root. -/
theorem dir_drive_root {x s : Char} {t : Str} (hx : ntIsSep x = false) (hs : ntIsSep s = true) :
    ntDirname (x :: ':' :: s :: t) = x :: ':' :: s :: ntRstrip (ntHead t) := by
  have h1 : (ntNorm (x :: ':' :: s :: t)).take 1 ≠ ['\\'] := by
    intro h
    obtain ⟨c, hc, hc'⟩ := (norm_take (x :: ':' :: s :: t) 0).1 h
    cases hc
    rw [hx] at hc'
    cases hc'
  have h2 := (norm_colon (x :: ':' :: s :: t) 1).2 rfl
  have h3 := (norm_take (x :: ':' :: s :: t) 2).2 ⟨s, rfl, hs⟩
  unfold ntDirname ntSplitroot
  simp only
  rw [if_neg h1, if_pos h2, if_pos h3]
  rfl

/-- A path with a drive and no root. -/
theorem dir_drive {x : Char} {t : Str} (hx : ntIsSep x = false) (ht : ∀ c, t[0]? = some c → ntIsSep c = false) :
    ntDirname (x :: ':' :: t) = x :: ':' :: ntRstrip (ntHead t) := by
  have h1 : (ntNorm (x :: ':' :: t)).take 1 ≠ ['\\'] := by
    intro h
    obtain ⟨c, hc, hc'⟩ := (norm_take (x :: ':' :: t) 0).1 h
    cases hc
    rw [hx] at hc'
    cases hc'
  have h2 := (norm_colon (x :: ':' :: t) 1).2 rfl
  have h3 : ((ntNorm (x :: ':' :: t)).drop 2).take 1 ≠ ['\\'] := by
    intro h
    obtain ⟨c, hc, hc'⟩ := (norm_take (x :: ':' :: t) 2).1 h
    rw [ht c hc] at hc'
    cases hc'
  unfold ntDirname ntSplitroot
  simp only
  rw [if_neg h1, if_pos h2, if_neg h3]
  rfl

/-- A path without drive and root. -/
theorem dir_plain {p : Str} (hp : ∀ c, p[0]? = some c → ntIsSep c = false) (hd : p[1]? ≠ some ':') :
    ntDirname p = ntRstrip (ntHead p) := by
  have h1 : (ntNorm p).take 1 ≠ ['\\'] := by
    intro h
    obtain ⟨c, hc, hc'⟩ := (norm_take p 0).1 h
    rw [hp c hc] at hc'
    cases hc'
  have h2 : ((ntNorm p).drop 1).take 1 ≠ [':'] := fun h => hd ((norm_colon p 1).1 h)
  unfold ntDirname ntSplitroot
  simp only
  rw [if_neg h1, if_neg h2]
  rfl

/-- A network path. -/
theorem dir_unc {s s' : Char} {t : Str} (hs : ntIsSep s = true) (hs' : ntIsSep s' = true) :
    ntDirname (s :: s' :: t) ≠ [] := by
  have h1 : (ntNorm (s :: s' :: t)).take 1 = ['\\'] := (norm_take (s :: s' :: t) 0).2 ⟨s, rfl, hs⟩
  have h2 := (norm_take (s :: s' :: t) 1).2 ⟨s', rfl, hs'⟩
  unfold ntDirname ntSplitroot
  simp only
  rw [if_pos h1, if_pos h2]
  generalize (if ntUpper ((ntNorm (s :: s' :: t)).take 8) = "\\\\?\\UNC\\".toList then 8 else 2) = start
  cases ntFind (ntNorm (s :: s' :: t)) start with
  | none => simp
  | some i =>
    simp only
    cases h : ntFind (ntNorm (s :: s' :: t)) (i + 1) with
    | none => simp
    | some j =>
      have : 0 < j := by
        unfold ntFind at h
        obtain ⟨k, -, rfl⟩ := Option.map_eq_some_iff.1 h
        omega
      obtain ⟨j, rfl⟩ := Nat.exists_eq_succ_of_ne_zero this.ne'
      simp

theorem all_slashes {a : Str} (h : a ++ ['/'] = List.replicate (a ++ ['/']).length '/') : ∀ c ∈ a, c = '/' := by
  intro c hc
  have : c ∈ List.replicate (a ++ ['/']).length '/' := by
    rw [← h]
    exact List.mem_append_left _ hc
  exact (List.mem_replicate.1 this).2

theorem slashed_other {s : Str} {c : Char} (hc : c ∈ s) (h : ntIsSep c = false) :
    slashed s ++ ['/'] ≠ List.replicate (slashed s ++ ['/']).length '/' := by
  intro he
  exact toSlash_ne_slash (ntIsSep_false.1 h) (all_slashes he _ (List.mem_map_of_mem hc))

end Bf2
