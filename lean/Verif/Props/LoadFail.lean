import Verif.LoadFailLemmas
import Verif.Props.Format
import Verif.Object

/-!
# C141: every way in which a file fails to load

C04, C05, C10 and C11 say that certain files are rejected.  Here is the converse: what an exception says
about the file.
-/

namespace Bf2

variable {F : Type} [FCodec F]

/-- The file says that a vertex number takes no bytes. -/
def FormatZero (pl : Plat) (file : Bytes) : Prop :=
  ∃ (p : Preamble) (bs rest : Bytes), p.Bytes pl bs ∧ file = bs ++ rest ∧ p.vertformat = 0

/-- The file announces a single vertex float, which is there. -/
def OneFloat (pl : Plat) (file : Bytes) : Prop :=
  ∃ (p : Preamble) (bs rest : Bytes), p.Bytes pl bs ∧ file = bs ++ rest ∧ p.vertformat ≠ 0 ∧
    intDivMul p.vertstride p.vertformat p.vertnum = 1 ∧ 4 ≤ rest.length

/-- The file is longer than a file that loads. -/
def TooManyBytes (F : Type) [FCodec F] (pl : Plat) (k : Kind) (file : Bytes) : Prop :=
  ∃ part tail, file = part ++ tail ∧ tail ≠ [] ∧ ∃ m : Mesh F, load pl k part = .ok m

/-- **C141.** `ZeroDivisionError`: exactly if `vertformat` is 0. -/
theorem C141_zero_division (pl : Plat) (k : Kind) (file : Bytes) :
    load (F := F) pl k file = .error .zeroDivisionError ↔ FormatZero pl file := by
  constructor
  · intro h
    unfold load at h
    split at h
    · next e he =>
      cases h
      rcases loadBody_error he with h | ⟨p, bs, rest, hb, hf, ⟨-, h⟩ | ⟨h, -⟩⟩
      · cases h
      · exact ⟨p, bs, rest, hb, hf, h⟩
      · cases h
    · cases h
    · cases h
  · rintro ⟨p, bs, rest, hb, rfl, h⟩
    exact C11_zero_vertformat_rejected pl k p bs rest hb h

/-- **C141.** `TypeError`: exactly if there is a single vertex float. -/
theorem C141_type (pl : Plat) (k : Kind) (file : Bytes) :
    load (F := F) pl k file = .error .typeError ↔ OneFloat pl file := by
  constructor
  · intro h
    unfold load at h
    split at h
    · next e he =>
      cases h
      rcases loadBody_error he with h | ⟨p, bs, rest, hb, hf, ⟨h, -⟩ | ⟨-, h⟩⟩
      · cases h
      · cases h
      · exact ⟨p, bs, rest, hb, hf, h⟩
    · cases h
    · cases h
  · rintro ⟨p, bs, rest, hb, rfl, h1, h2, h3⟩
    rw [C10_one_float_rejected pl k p bs rest hb h1 h2, if_pos h3]

/-- **C141.** `AttributeError`: exactly if a file that loads is followed by more bytes. -/
theorem C141_attribute (pl : Plat) (k : Kind) (file : Bytes) :
    load (F := F) pl k file = .error .attributeError ↔ TooManyBytes F pl k file := by
  constructor
  · intro h
    have h' : load (F := BitVec 32) pl k file = .error .attributeError := by
      rw [load_map] at h
      rcases hl : load (F := BitVec 32) pl k file with e | m
      · rw [hl] at h
        simpa [Except.map] using h
      · rw [hl] at h
        cases h
    unfold load at h'
    split at h'
    · next e he =>
      cases h'
      rcases loadBody_error he with h | ⟨p, bs, rest, hb, hf, ⟨h, -⟩ | ⟨h, -⟩⟩ <;> cases h
    · cases h'
    · next m c r hm =>
      obtain ⟨hw, bs, hb, rfl⟩ := (loadBody_inv pl k).sound hm
      refine ⟨bs, c :: r, rfl, by simp, _, load_ok_map.2 ⟨m, load_ok_iff.2 ?_, rfl⟩⟩
      have := (loadBody_inv pl k).complete [] hw hb
      rwa [List.append_nil] at this
  · rintro ⟨part, tail, rfl, ht, m, hm⟩
    exact C04_trailing_bytes_rejected pl k part tail m hm ht

/-- **C141.** `struct.error` in all other cases, and nothing else is raised: a file of any content loads,
or has a file that loads in front, or has `vertformat` 0, or a single vertex float, or raises
`struct.error`; never two of these. -/
theorem C141_struct (pl : Plat) (k : Kind) (file : Bytes) :
    load (F := F) pl k file = .error .structError ↔
      (¬ ∃ m : Mesh F, load pl k file = .ok m) ∧ ¬ TooManyBytes F pl k file ∧ ¬ FormatZero pl file ∧
        ¬ OneFloat pl file := by
  rw [← C141_attribute, ← C141_zero_division (F := F) pl k, ← C141_type (F := F) pl k]
  constructor
  · intro h
    rw [h]
    simp
  · rintro ⟨h1, h2, h3, h4⟩
    rcases h : load (F := F) pl k file with e | m
    · rw [h] at h2 h3 h4
      unfold load at h
      split at h
      · next e' he =>
        cases h
        rcases loadBody_error he with h | ⟨p, bs, rest, hb, hf, ⟨rfl, -⟩ | ⟨rfl, -⟩⟩
        · rw [h]
        · exact absurd rfl h3
        · exact absurd rfl h4
      · cases h
      · cases h
        exact absurd rfl h2
    · exact absurd ⟨m, h⟩ h1

/-- **C141.** What is wrong with a file is not repaired by appending to it, except for `struct.error`. -/
theorem C141_append (pl : Plat) (k : Kind) (file more : Bytes) {e : Err}
    (h : load (F := F) pl k file = .error e) (other : e ≠ .structError) :
    load (F := F) pl k (file ++ more) = .error e := by
  by_cases ha : e = .attributeError
  · subst ha
    obtain ⟨part, tail, rfl, ht, m, hm⟩ := (C141_attribute pl k file).1 h
    refine (C141_attribute pl k _).2 ⟨part, tail ++ more, by simp, by simp [ht], m, hm⟩
  by_cases hz : e = .zeroDivisionError
  · subst hz
    obtain ⟨p, bs, rest, hb, rfl, h1⟩ := (C141_zero_division pl k file).1 h
    exact (C141_zero_division pl k _).2 ⟨p, bs, rest ++ more, hb, by simp, h1⟩
  by_cases hy : e = .typeError
  · subst hy
    obtain ⟨p, bs, rest, hb, rfl, h1, h2, h3⟩ := (C141_type pl k file).1 h
    exact (C141_type pl k _).2 ⟨p, bs, rest ++ more, hb, by simp, h1, h2, by simp; omega⟩
  refine absurd ?_ other
  have := (C141_struct (F := F) pl k file).2 ⟨by rw [h]; simp,
    by rw [← C141_attribute, h]; simpa using ha,
    by rw [← C141_zero_division (F := F) pl k, h]; simpa using hz,
    by rw [← C141_type (F := F) pl k, h]; simpa using hy⟩
  rw [h] at this
  exact Except.error.inj this

/-- **C141.** What constructing a mesh may raise: without a file name `AttributeError`; else what opening the
file raises (there is no such file, a part of the path is not a directory, it is a directory), else what
loading its content raises. -/
theorem C141_construct (pl : Plat) (fs : FS) (name : Option Str) (fl : Flags) (e : Err) :
    construct (F := F) pl fs name fl = .error e ↔
      ((name = none ∨ name = some []) ∧ e = .attributeError) ∨
      ∃ s, name = some s ∧ s ≠ [] ∧
        ((fs.read s = .error e ∧
            (e = .fileNotFoundError ∨ e = .notADirectoryError ∨ e = .isADirectoryError)) ∨
          ∃ content, fs.read s = .ok content ∧ load (F := F) pl (kindOfName s) content = .error e ∧
            (e = .structError ∨ e = .attributeError ∨ e = .zeroDivisionError ∨ e = .typeError)) := by
  have walk : ∀ (cs : List Str) (l : Loc) e, fs.walk l cs = .error e →
      e = .fileNotFoundError ∨ e = .notADirectoryError := by
    intro cs
    induction cs with
    | nil => intro l e h; cases h
    | cons c cs ih =>
      intro l e h
      unfold FS.walk at h
      split at h
      · cases h; exact .inl rfl
      · cases h; exact .inr rfl
      · split at h
        · exact ih _ _ h
        · split at h
          · exact ih _ _ h
          · exact ih _ _ h
  have read : ∀ s e, fs.read s = .error e →
      e = .fileNotFoundError ∨ e = .notADirectoryError ∨ e = .isADirectoryError := by
    intro s e h
    unfold FS.read at h
    split at h
    · next e' hr =>
      cases h
      unfold FS.resolve at hr
      split at hr
      · cases hr; exact .inl rfl
      · rcases walk _ _ _ hr with h | h
        · exact .inl h
        · exact .inr (.inl h)
    · split at h
      · cases h; exact .inl rfl
      · cases h; exact .inr (.inr rfl)
      · cases h
  have content : ∀ k b e, load (F := F) pl k b = .error e →
      e = .structError ∨ e = .attributeError ∨ e = .zeroDivisionError ∨ e = .typeError := by
    intro k b e h
    by_contra hn
    refine hn (.inl ?_)
    have := (C141_struct (F := F) pl k b).2 ⟨by rw [h]; simp,
      by rw [← C141_attribute, h]; simpa using fun he => hn (.inr (.inl he)),
      by rw [← C141_zero_division (F := F) pl k, h]; simpa using fun he => hn (.inr (.inr (.inl he))),
      by rw [← C141_type (F := F) pl k, h]; simpa using fun he => hn (.inr (.inr (.inr he)))⟩
    rw [h] at this
    exact Except.error.inj this
  rcases name with _ | _ | ⟨c, cs⟩
  · simp only [construct, baseInit, Except.error.injEq, true_and, reduceCtorEq, false_and,
      exists_const, or_false]
    exact eq_comm
  · simp only [construct, baseInit, Except.error.injEq, or_true, true_and, Option.some.injEq]
    constructor
    · exact fun h => .inl h.symm
    · rintro (h | ⟨s, rfl, h, -⟩)
      · exact h.symm
      · exact absurd rfl h
  · simp only [construct, baseInit, reduceCtorEq, Option.some.injEq, or_self, false_and, false_or]
    constructor
    · intro h
      refine ⟨_, rfl, by simp, ?_⟩
      rcases hr : fs.read (c :: cs) with e' | b
      · rw [hr] at h
        cases h
        exact .inl ⟨rfl, read _ _ hr⟩
      · rw [hr] at h
        simp only at h
        rcases hl : load (F := F) pl (kindOfName (c :: cs)) b with e' | m
        · rw [hl] at h
          cases h
          exact .inr ⟨b, rfl, hl, content _ _ _ hl⟩
        · rw [hl] at h
          cases h
    · rintro ⟨s, rfl, -, ⟨h, -⟩ | ⟨b, h1, h2, -⟩⟩
      · rw [h]
      · rw [h1]
        simp only
        rw [h2]

/-- Each of the five happens: the sample file, with a byte more, with a byte less, and two preambles. -/
example : (load (F := F64) win staticKind (fileBytes win tiny).bytes).isOk = true ∧
    load (F := F64) win staticKind ((fileBytes win tiny).bytes ++ [0]) = .error .attributeError ∧
    load (F := F64) win staticKind (fileBytes win tiny).bytes.dropLast = .error .structError ∧
    load (F := F64) win staticKind
      (layout win (⟨⟨0, 11, 0, 0, 0⟩, 0, 1, [1], 1, [⟨0, 0, 0, 0⟩], 0, 4, 1⟩ : Preamble).items) =
        .error .zeroDivisionError ∧
    load (F := F64) win staticKind
      (layout win (⟨⟨0, 11, 0, 0, 0⟩, 0, 1, [1], 1, [⟨0, 0, 0, 0⟩], 4, 4, 1⟩ : Preamble).items ++
        [0, 0, 0, 0]) = .error .typeError := by
  decide +kernel

end Bf2
