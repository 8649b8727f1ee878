import Verif.OldModLemmas
import Mathlib.Tactic.Ring
import Mathlib.Tactic.FieldSimp

/-! # Lemmas about `parse_settings` -/

namespace Bf2

theorem isDigit_iff {c : Char} : c.isDigit = true ↔ '0' ≤ c ∧ c ≤ '9' := by
  simp only [Char.isDigit, Bool.and_eq_true, decide_eq_true_eq]
  rfl

theorem Digits.isDigit {s : Str} (h : Digits s) : ∀ c ∈ s, c.isDigit = true :=
  fun c hc => isDigit_iff.2 (h.2 c hc)

theorem digits_of {d r : Str} (h : Digits d) (hr : ∀ x, r.head? = some x → x.isDigit = false) :
    digits (d ++ r) = some (d, r) := by
  unfold digits
  rw [takeWhile_word h.isDigit hr, dropWhile_word h.isDigit hr]
  rcases d with _ | ⟨x, xs⟩
  · exact absurd rfl h.1
  · rfl

theorem decNat_foldl (s : Str) (n : Nat) :
    s.foldl (fun n c => 10 * n + (c.toNat - 48)) n = n * 10 ^ s.length + digitsValue s := by
  induction s generalizing n with
  | nil => simp [digitsValue]
  | cons c s ih =>
    rw [List.foldl_cons, ih]
    have : digitsValue (c :: s) = digitsValue s + (c.toNat - 48) * 10 ^ s.length := by
      unfold digitsValue
      rw [List.reverse_cons, List.map_append, Nat.ofDigits_append]
      simp
      rw [Nat.mul_comm]
    rw [this, List.length_cons]
    ring

theorem decNat_eq (s : Str) : decNat s = digitsValue s := by
  unfold decNat
  rw [decNat_foldl]
  simp

theorem decNat_append (a b : Str) : decNat (a ++ b) = digitsValue a * 10 ^ b.length + digitsValue b := by
  unfold decNat
  rw [List.foldl_append, decNat_foldl b, decNat_foldl a]
  simp

theorem matchNumber_of {d r : Str} {q : ℚ} (h : Numeral d q) :
    matchNumber (d ++ '\n' :: r) = some (F64.ofRat false q, '\n' :: r) := by
  have hnl : ∀ x, ('\n' :: r).head? = some x → x.isDigit = false := by
    rintro x hx
    obtain rfl : '\n' = x := by simpa using hx
    rfl
  unfold matchNumber
  cases h with
  | whole ha =>
    rw [digits_of ha hnl]
    simp only
    rw [lit_none.2 (by rintro ⟨y, hy⟩; simp at hy), decNat_eq]
    rfl
  | @frac a b ha hb =>
    rw [List.append_assoc, digits_of ha (by rintro x hx; obtain rfl : '.' = x := by simpa using hx
                                            rfl)]
    simp only
    rw [show '.' :: b ++ '\n' :: r = ".".toList ++ (b ++ '\n' :: r) from rfl, lit_some.2 rfl]
    simp only [Option.bind_some]
    rw [digits_of hb hnl]
    simp only
    rw [decNat_append]
    congr 3
    push_cast
    field_simp

theorem matchCell_of {c : Cell} {v : Nat × Nat × F64} (h : c.Reads v) (r : Str) :
    matchCell (c.lines ++ r) = some (v.1, v.2.1, v.2.2, '\n' :: r) := by
  obtain ⟨⟨ha, va⟩, ⟨ht, vt⟩, q, hd, vd⟩ := h
  have e : c.lines ++ r = "MaterialManager".toList ++ ('.' :: ("createCell ".toList ++ (c.attacker ++
      (" ".toList ++ (c.target ++ ("\nMaterialManager".toList ++ ('.' :: ("damageMod ".toList ++
      (c.damage ++ '\n' :: r))))))))) := by
    unfold Cell.lines
    simp
  unfold matchCell
  rw [e, lit_some.2 rfl]
  simp only [Option.bind_eq_bind, Option.bind_some]
  rw [anyChar_some.2 ⟨rfl, by decide⟩]
  simp only [Option.bind_some]
  rw [lit_some.2 rfl]
  simp only [Option.bind_some]
  rw [digits_of ha (by rintro x hx; obtain rfl : ' ' = x := by simpa using hx
                       rfl)]
  simp only [Option.bind_some]
  rw [lit_some.2 rfl]
  simp only [Option.bind_some]
  rw [digits_of ht (by rintro x hx; obtain rfl : '\n' = x := by simpa using hx
                       rfl)]
  simp only [Option.bind_some]
  rw [lit_some.2 rfl]
  simp only [Option.bind_some]
  rw [anyChar_some.2 ⟨rfl, by decide⟩]
  simp only [Option.bind_some]
  rw [lit_some.2 rfl]
  simp only [Option.bind_some]
  rw [matchNumber_of hd]
  simp only [Option.bind_some, decNat_eq]
  rw [← va, ← vt, ← vd]
  rfl

theorem digits_shorter {s d r : Str} (h : digits s = some (d, r)) : r.length ≤ s.length := by
  unfold digits at h
  split at h
  · cases h
  · cases h
    exact (List.dropWhile_suffix _).length_le

theorem lit_shorter {l s r : Str} (h : lit l s = some r) : r.length + l.length = s.length := by
  rw [lit_some.1 h, List.length_append]; omega

theorem anyChar_shorter {s r : Str} {c : Char} (h : anyChar s = some (c, r)) : r.length ≤ s.length := by
  rw [(anyChar_some.1 h).1]; simp

theorem matchNumber_shorter {s r : Str} {x : F64} (h : matchNumber s = some (x, r)) :
    r.length ≤ s.length := by
  unfold matchNumber at h
  split at h
  · cases h
  · next a r1 h1 =>
    have := digits_shorter h1
    split at h
    · next b r2 h2 =>
      cases h
      obtain ⟨r3, h3, h4⟩ := Option.bind_eq_some_iff.1 h2
      have := lit_shorter h3
      have := digits_shorter h4
      omega
    · cases h; exact this

theorem matchCell_begins {s : Str} {x : Nat × Nat × F64 × Str} (h : matchCell s = some x) :
    x.2.2.2.length < s.length ∧ ∃ c r, c ≠ '\n' ∧
      s = ("MaterialManager".toList ++ c :: "createCell ".toList) ++ r := by
  unfold matchCell at h
  simp only [Option.bind_eq_bind, Option.bind_eq_some_iff, Prod.exists] at h
  obtain ⟨r1, h1, c, r2, h2, r3, h3, a, r4, h4, r5, h5, t, r6, h6, r7, h7, c', r8, h8, r9, h9, d, r10, h10, h⟩ := h
  cases h
  have g1 := lit_shorter h1
  have g2 := anyChar_shorter h2
  have g3 := lit_shorter h3
  have g4 := digits_shorter h4
  have g5 := lit_shorter h5
  have g6 := digits_shorter h6
  have g7 := lit_shorter h7
  have g8 := anyChar_shorter h8
  have g9 := lit_shorter h9
  have g10 := matchNumber_shorter h10
  have hl : "MaterialManager".toList.length = 15 := rfl
  refine ⟨by simp only; omega, c, r3, (anyChar_some.1 h2).2, ?_⟩
  rw [lit_some.1 h1, (anyChar_some.1 h2).1, lit_some.1 h3]
  simp

theorem findCells_fuel (n : Nat) (s : Str) (h : s.length ≤ n) : findCells n s = cellsOf s := by
  unfold cellsOf
  suffices ∀ n m (s : Str), s.length ≤ n → s.length ≤ m → findCells n s = findCells m s from
    this _ _ _ h le_rfl
  intro n
  induction n with
  | zero =>
    intro m s h _
    obtain rfl : s = [] := List.length_eq_zero_iff.1 (by omega)
    cases m <;> rfl
  | succ n ih =>
    intro m s h hm
    cases s with
    | nil => cases m <;> rfl
    | cons c cs =>
      cases m with
      | zero => simp at hm
      | succ m =>
        simp only [List.length_cons] at h hm
        unfold findCells
        simp only
        rcases hx : matchCell (c :: cs) with _ | ⟨a, t, d, r⟩
        · exact ih m cs (by omega) (by omega)
        · have := (matchCell_begins hx).1
          simp only [List.length_cons] at this
          simp only
          rw [ih m r (by omega) (by omega)]

theorem cellsOf_none {c : Char} {cs : Str} (h : matchCell (c :: cs) = none) :
    cellsOf (c :: cs) = cellsOf cs := by
  unfold cellsOf
  rw [List.length_cons, findCells, h]

theorem cellsOf_some {s r : Str} {a t : Nat} {d : F64} (h : matchCell s = some (a, t, d, r)) :
    cellsOf s = (a, t, d) :: cellsOf r := by
  cases s with
  | nil => cases h
  | cons c cs =>
    have := (matchCell_begins h).1
    simp only [List.length_cons] at this
    rw [← findCells_fuel (cs.length) r (by omega)]
    unfold cellsOf
    rw [List.length_cons, findCells, h]

theorem matchCell_newline (s : Str) : matchCell ('\n' :: s) = none := by
  rcases h : matchCell ('\n' :: s) with _ | x
  · rfl
  · obtain ⟨-, c, r, -, he⟩ := matchCell_begins h
    simp at he

theorem cellsOf_other {j : Str} (h : OtherLines j) (t : Str) : cellsOf (j ++ t) = cellsOf t := by
  induction j with
  | nil => rfl
  | cons c j ih =>
    obtain ⟨h1, h2⟩ := h
    rw [List.cons_append, cellsOf_none, ih]
    · refine ⟨?_, fun hi => h2 (hi.trans (List.suffix_cons c j).isInfix)⟩
      rcases j with _ | ⟨x, xs⟩
      · exact .inl rfl
      · rcases h1 with h1 | h1
        · cases h1
        · exact .inr (by simpa using h1)
    · rcases hx : matchCell (c :: (j ++ t)) with _ | x
      · rfl
      · exfalso
        obtain ⟨-, d, r, hd, he⟩ := matchCell_begins hx
        have hend : (c :: j).getLast? = some '\n' := by simpa using h1
        rw [← List.cons_append] at he
        rcases List.append_eq_append_iff.1 he with ⟨as, ha, -⟩ | ⟨bs, hb, -⟩
        · have : '\n' ∈ "MaterialManager".toList ++ d :: "createCell ".toList := by
            rw [ha]
            exact List.mem_append_left _ (List.mem_of_getLast? hend)
          rw [List.mem_append, List.mem_cons] at this
          rcases this with h | h | h
          · exact absurd h (by decide)
          · exact hd h.symm
          · exact absurd h (by decide)
        · apply h2
          rw [hb]
          exact ⟨"MaterialManager".toList ++ [d], ' ' :: bs, by simp⟩

theorem cellsOf_text {cells : List (Str × Cell)} {vs : List (Nat × Nat × F64)} {rest : Str}
    (h : List.Forall₂ (fun p v => OtherLines p.1 ∧ Cell.Reads p.2 v) cells vs) (hr : OtherLines rest) :
    cellsOf (settingsText cells rest) = vs := by
  induction h with
  | nil =>
    unfold settingsText
    rw [List.flatMap_nil, List.nil_append]
    have := cellsOf_other hr []
    rw [List.append_nil] at this
    rw [this]
    rfl
  | @cons p v ps vs h1 _ ih =>
    have e : settingsText (p :: ps) rest = p.1 ++ (p.2.lines ++ settingsText ps rest) := by
      unfold settingsText
      rw [List.flatMap_cons]
      simp
    rw [e, cellsOf_other h1.1, cellsOf_some (matchCell_of h1.2 _), cellsOf_none (matchCell_newline _), ih]

/-! ## The dictionary -/

/-- `cells[a].damage_mod[t]` -/
def damageOf (d : Dict (Dict F64)) (a t : Nat) : Option F64 := (d.lookup a).bind (·.lookup t)

theorem lookup_map (d : Dict (Dict F64)) (f : Nat → Dict F64 → Dict F64) (a : Nat) :
    (d.map fun e => (e.1, f e.1 e.2)).lookup a = (d.lookup a).map (f a) := by
  induction d with
  | nil => rfl
  | cons e d ih =>
    obtain ⟨k, v⟩ := e
    rw [List.map_cons, List.lookup_cons, List.lookup_cons]
    by_cases h : a = k
    · subst h; simp
    · have : (a == k) = false := by simpa using h
      rw [this]
      exact ih

theorem lookup_append' {α : Type} (d e : Dict α) (a : Nat) :
    (d ++ e).lookup a = (d.lookup a).or (e.lookup a) := by
  induction d with
  | nil => simp
  | cons x d ih =>
    obtain ⟨k, v⟩ := x
    rw [List.cons_append, List.lookup_cons, List.lookup_cons]
    split <;> simp [ih]

theorem addCell_eq (d : Dict (Dict F64)) (c : Nat × Nat × F64) : addCell d c =
    (if (d.lookup c.1).isSome then d else d ++ [(c.1, [])]).map fun e =>
      (e.1, if e.1 = c.1 ∧ (e.2.lookup c.2.1).isNone then e.2 ++ [(c.2.1, c.2.2)] else e.2) := by
  unfold addCell
  simp only
  congr 1
  funext e
  split <;> rfl

theorem addCell_damage (d : Dict (Dict F64)) (c : Nat × Nat × F64) (a t : Nat) :
    damageOf (addCell d c) a t =
      (damageOf d a t).or (if c.1 = a ∧ c.2.1 = t then some c.2.2 else none) := by
  unfold damageOf
  rw [addCell_eq, lookup_map _ (fun k v => if k = c.1 ∧ (v.lookup c.2.1).isNone then
    v ++ [(c.2.1, c.2.2)] else v)]
  obtain ⟨ca, ct, cd⟩ := c
  simp only
  by_cases ha : ca = a
  · subst ha
    have hl : ((if (d.lookup ca).isSome = true then d else d ++ [(ca, [])]).lookup ca) =
        some ((d.lookup ca).getD []) := by
      split
      · next h =>
        obtain ⟨v, hv⟩ := Option.isSome_iff_exists.1 h
        rw [hv]; rfl
      · next h =>
        rw [lookup_append', Option.not_isSome_iff_eq_none.1 h]
        simp [List.lookup]
    rw [hl]
    simp only [Option.map_some, Option.bind_some, true_and]
    have hg : (d.lookup ca).bind (·.lookup t) = ((d.lookup ca).getD []).lookup t := by
      rcases d.lookup ca <;> rfl
    rw [hg]
    generalize (d.lookup ca).getD [] = v
    by_cases ht : ct = t
    · subst ht
      rcases hv : v.lookup ct with _ | x
      · simp only [Option.isNone_none, if_true]
        rw [lookup_append', hv]
        simp [List.lookup]
      · simp [hv]
    · rw [if_neg ht]
      split
      · rw [lookup_append']
        have : (t == ct) = false := by simpa using Ne.symm ht
        simp [List.lookup, this]
      · simp
  · have hl : ((if (d.lookup ca).isSome = true then d else d ++ [(ca, [])]).lookup a) = d.lookup a := by
      split
      · rfl
      · rw [lookup_append']
        have : (a == ca) = false := by simpa using Ne.symm ha
        simp [List.lookup, this]
    rw [hl]
    have h1 : ¬ (a = ca) := Ne.symm ha
    simp only [h1, ha, false_and, if_false, Option.or_none]
    rcases d.lookup a <;> rfl

theorem lookup_isSome {α : Type} (d : Dict α) (a : Nat) : (d.lookup a).isSome = true ↔ a ∈ d.map (·.1) := by
  induction d with
  | nil => simp
  | cons e d ih =>
    obtain ⟨k, v⟩ := e
    rw [List.lookup_cons, List.map_cons, List.mem_cons, ← ih]
    by_cases h : a = k
    · subst h; simp
    · have : (a == k) = false := by simpa using h
      rw [this]
      simp [h]

theorem addCell_keys (d : Dict (Dict F64)) (c : Nat × Nat × F64) :
    (addCell d c).map (·.1) = if c.1 ∈ d.map (·.1) then d.map (·.1) else d.map (·.1) ++ [c.1] := by
  rw [addCell_eq, List.map_map]
  by_cases h : c.1 ∈ d.map (·.1)
  · rw [if_pos h, if_pos ((lookup_isSome d c.1).2 h)]
    rfl
  · rw [if_neg h, if_neg (fun hs => h ((lookup_isSome d c.1).1 hs)), List.map_append]
    rfl

end Bf2
