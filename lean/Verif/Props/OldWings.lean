import Verif.OldWingsLemmas
import Verif.Props.OldMod

/-! # C154: what `get_wings` prints and `Jet.loadFromCon` keeps -/

namespace Bf2

section
variable {w : Char → Bool} {read : Str → Except Err Str}

/-- The lines printed for a line of the template: the first command of each line of the file it
includes. -/
def LineWings (w : Char → Bool) (read : Str → Except Err Str) (folder line : Str) (p : List Str) : Prop :=
  (NoInclude w line ∧ p = []) ∨
    ∃ stem c text parts, FirstInclude w line stem c ∧
      read (pathJoin folder (includedFile stem c)) = .ok text ∧
      List.Forall₂ (LineWing w) (text.splitOn '\n') parts ∧ p = parts.flatten

/-- The file the line includes cannot be read. -/
def LineFails (w : Char → Bool) (read : Str → Except Err Str) (folder line : Str) (e : Err) : Prop :=
  ∃ stem c, FirstInclude w line stem c ∧ read (pathJoin folder (includedFile stem c)) = .error e

theorem firstInclude_word (hw : w ' ' = false) {line stem : Str} {c : Char}
    (h : FirstInclude w line stem c) : wordAt (includeText stem c) 1 = .ok (includedFile stem c) := by
  obtain ⟨_, _, _, hi, _⟩ := h
  exact includeText_word (hi.1.no_space hw)

/-- One step of the loop. -/
theorem wingLoop_cons (hw : w ' ' = false) {folder l : Str} {ls : List Str} :
    (∃ p, LineWings w read folder l p ∧ wingLoop w read folder (l :: ls) =
      (p ++ (wingLoop w read folder ls).1, (wingLoop w read folder ls).2)) ∨
    ∃ e, LineFails w read folder l e ∧ wingLoop w read folder (l :: ls) = ([], some e) := by
  rcases hi : search (matchInclude w) l with _ | g
  · refine .inl ⟨[], .inl ⟨searchInclude_none.1 hi, rfl⟩, ?_⟩
    rw [wingLoop, hi]
    rfl
  · obtain ⟨stem, c, hf, rfl⟩ := searchInclude_some.1 hi
    rcases hr : read (pathJoin folder (includedFile stem c)) with e | text
    · refine .inr ⟨e, ⟨stem, c, hf, hr⟩, ?_⟩
      rw [wingLoop, hi]
      simp only
      rw [firstInclude_word hw hf]
      simp only
      rw [hr]
    · obtain ⟨parts, h1, h2⟩ := tweakWings_iff (w := w) (lines := text.splitOn '\n').2 rfl
      refine .inl ⟨tweakWings w (text.splitOn '\n'), .inr ⟨stem, c, text, parts, hf, hr, h1, h2⟩, ?_⟩
      rw [wingLoop, hi]
      simp only
      rw [firstInclude_word hw hf]
      simp only
      rw [hr]

theorem firstInclude_unique {line stem stem' : Str} {c c' : Char} (h : FirstInclude w line stem c)
    (h' : FirstInclude w line stem' c') : includeText stem c = includeText stem' c' := by
  have e := searchInclude_some.2 ⟨stem, c, h, rfl⟩
  rw [searchInclude_some.2 ⟨stem', c', h', rfl⟩] at e
  exact (Option.some.inj e).symm

theorem included_unique (hw : w ' ' = false) {line stem stem' : Str} {c c' : Char}
    (h : FirstInclude w line stem c) (h' : FirstInclude w line stem' c') :
    includedFile stem c = includedFile stem' c' := by
  have e := firstInclude_word hw h
  rw [firstInclude_unique h h', firstInclude_word hw h'] at e
  injection e with e
  exact e.symm

theorem lineWings_unique (hw : w ' ' = false) {folder l : Str} {p q : List Str}
    (h : LineWings w read folder l p) (k : LineWings w read folder l q) : p = q := by
  rcases h with ⟨hn, rfl⟩ | ⟨stem, c, text, parts, hf, hr, hp, rfl⟩
  · rcases k with ⟨-, rfl⟩ | ⟨stem', c', _, _, hf', -⟩
    · rfl
    · have := searchInclude_some.2 ⟨stem', c', hf', rfl⟩
      rw [searchInclude_none.2 hn] at this
      cases this
  · rcases k with ⟨hn, -⟩ | ⟨stem', c', text', parts', hf', hr', hp', rfl⟩
    · have := searchInclude_some.2 ⟨stem, c, hf, rfl⟩
      rw [searchInclude_none.2 hn] at this
      cases this
    · rw [included_unique hw hf hf', hr'] at hr
      obtain rfl : text' = text := by injection hr
      exact (tweakWings_iff.1 ⟨parts, hp, rfl⟩).trans (tweakWings_iff.1 ⟨parts', hp', rfl⟩).symm

theorem lineWings_not_fails (hw : w ' ' = false) {folder l : Str} {p : List Str} {e : Err}
    (h : LineWings w read folder l p) : ¬ LineFails w read folder l e := by
  rintro ⟨stem', c', hf', hr'⟩
  rcases h with ⟨hn, -⟩ | ⟨stem, c, text, parts, hf, hr, -⟩
  · have := searchInclude_some.2 ⟨stem', c', hf', rfl⟩
    rw [searchInclude_none.2 hn] at this
    cases this
  · rw [included_unique hw hf hf', hr'] at hr
    cases hr

theorem lineFails_unique (hw : w ' ' = false) {folder l : Str} {e e' : Err}
    (h : LineFails w read folder l e) (k : LineFails w read folder l e') : e = e' := by
  obtain ⟨stem, c, hf, hr⟩ := h
  obtain ⟨stem', c', hf', hr'⟩ := k
  rw [included_unique hw hf hf', hr'] at hr
  injection hr with hr
  exact hr.symm

theorem wingLoop_ok (hw : w ' ' = false) {folder : Str} {lines out : List Str} :
    wingLoop w read folder lines = (out, none) ↔
      ∃ parts, List.Forall₂ (LineWings w read folder) lines parts ∧ out = parts.flatten := by
  induction lines generalizing out with
  | nil => simp [wingLoop, eq_comm]
  | cons l ls ih =>
    rcases wingLoop_cons (read := read) hw (folder := folder) (l := l) (ls := ls) with
      ⟨p, hp, e⟩ | ⟨x, hx, e⟩
    · rw [e]
      constructor
      · intro h
        obtain ⟨h1, h2⟩ := Prod.mk.inj h
        obtain ⟨parts, k1, k2⟩ := ih.1 (Prod.ext rfl h2 : wingLoop w read folder ls = (_, none))
        exact ⟨p :: parts, .cons hp k1, by rw [← h1, List.flatten_cons, ← k2]⟩
      · rintro ⟨parts, h, rfl⟩
        cases h with
        | cons h1 h2 =>
          rw [lineWings_unique hw hp h1, ih.2 ⟨_, h2, rfl⟩]
          rfl
    · rw [e]
      constructor
      · intro h
        cases h
      · rintro ⟨parts, h, rfl⟩
        cases h with
        | cons h1 h2 => exact absurd hx (lineWings_not_fails hw h1)

theorem wingLoop_err (hw : w ' ' = false) {folder : Str} {lines out : List Str} {x : Err} :
    wingLoop w read folder lines = (out, some x) ↔
      ∃ pre l post parts, lines = pre ++ l :: post ∧
        List.Forall₂ (LineWings w read folder) pre parts ∧ out = parts.flatten ∧
        LineFails w read folder l x := by
  induction lines generalizing out with
  | nil => simp [wingLoop]
  | cons l ls ih =>
    rcases wingLoop_cons (read := read) hw (folder := folder) (l := l) (ls := ls) with
      ⟨p, hp, e⟩ | ⟨y, hy, e⟩
    · rw [e]
      constructor
      · intro h
        obtain ⟨h1, h2⟩ := Prod.mk.inj h
        obtain ⟨pre, l', post, parts, rfl, k1, k2, k3⟩ :=
          ih.1 (Prod.ext rfl h2 : wingLoop w read folder ls = (_, some x))
        exact ⟨l :: pre, l', post, p :: parts, rfl, .cons hp k1,
          by rw [← h1, List.flatten_cons, ← k2], k3⟩
      · rintro ⟨pre, l', post, parts, hl, h, rfl, hx⟩
        rcases pre with _ | ⟨l0, pre⟩
        · obtain ⟨rfl, rfl⟩ := List.cons.inj hl
          exact absurd hx (lineWings_not_fails hw hp)
        · obtain ⟨rfl, rfl⟩ := List.cons.inj hl
          cases h with
          | cons h1 h2 =>
            rw [lineWings_unique hw hp h1, ih.2 ⟨pre, l', post, _, rfl, h2, rfl, hx⟩]
            rfl
    · rw [e]
      constructor
      · intro h
        obtain ⟨h1, h2⟩ := Prod.mk.inj h
        obtain rfl := Option.some.inj h2
        exact ⟨[], l, ls, [], rfl, .nil, h1.symm, hy⟩
      · rintro ⟨pre, l', post, parts, hl, h, rfl, hx⟩
        rcases pre with _ | ⟨l0, pre⟩
        · obtain ⟨rfl, rfl⟩ := List.cons.inj hl
          cases h
          rw [lineFails_unique hw hx hy]
          rfl
        · obtain ⟨rfl, rfl⟩ := List.cons.inj hl
          cases h with
          | cons h1 h2 => exact absurd hy (lineWings_not_fails hw h1)

/-- **C154.** `get_wings` ends normally exactly if every file included by a line of the template can be
read, and then has printed the first wing command of each line of each of them, in order. -/
theorem C154_printed (hw : w ' ' = false) {path text : Str} (hr : read path = .ok text) (out : List Str) :
    getWings w read path = (out, none) ↔ ∃ parts,
      List.Forall₂ (LineWings w read (dirname path)) (text.splitOn '\n') parts ∧ out = parts.flatten := by
  unfold getWings
  rw [hr]
  exact wingLoop_ok hw

/-- It raises exactly if a file cannot be read, with the exception of the first such file, after having
printed what the lines before gave. -/
theorem C154_raises (hw : w ' ' = false) {path text : Str} (hr : read path = .ok text) (out : List Str)
    (e : Err) :
    getWings w read path = (out, some e) ↔ ∃ pre l post parts, text.splitOn '\n' = pre ++ l :: post ∧
      List.Forall₂ (LineWings w read (dirname path)) pre parts ∧ out = parts.flatten ∧
      LineFails w read (dirname path) l e := by
  unfold getWings
  rw [hr]
  exact wingLoop_err hw

/-- Wings of the template itself are never found: without an include nothing is printed. -/
theorem C154_own_wings_ignored (hw : w ' ' = false) {path text : Str} (hr : read path = .ok text)
    (h : ∀ l ∈ text.splitOn '\n', NoInclude w l) : getWings w read path = ([], none) := by
  rw [C154_printed hw hr]
  refine ⟨(text.splitOn '\n').map fun _ => [], ?_, ?_⟩
  · rw [List.forall₂_map_right_iff, List.forall₂_same]
    exact fun l hl => .inl ⟨h l hl, rfl⟩
  · induction text.splitOn '\n' with
    | nil => rfl
    | cons l ls ih => simp

/-- A negative whole number is not recognised as a lift. -/
theorem C154_negative_whole {c : Char} {what n post g : Str}
    (hv : what = "setWingLift ".toList ∨ what = "setFlapLift ".toList) (hn : Digits n)
    (hp : ∀ x, post.head? = some x → x ≠ '.' ∧ ¬ ('0' ≤ x ∧ x ≤ '9')) :
    ¬ WingAt w ("ObjectTemplate".toList ++ c :: (what ++ '-' :: (n ++ post))) g := by
  intro h
  rw [← matchWing_iff] at h
  have hlift : matchLift ('-' :: (n ++ post)) = none := by
    have h1 : ∀ x, post.head? = some x → x.isDigit = false := fun x hx => notDigit_iff.1 (hp x hx).2
    unfold matchLift liftSign
    simp only [true_or, if_true]
    rw [dropWhile_word hn.isDigit h1, takeWhile_word hn.isDigit h1]
    have : lit ".".toList post = none := by
      rw [lit_none]
      rintro ⟨r, rfl⟩
      exact (hp '.' rfl).1 rfl
    rw [this]
    rfl
  unfold matchWing at h
  rw [lit_some.2 rfl] at h
  simp only at h
  split at h
  · cases h
  · next c' r hc =>
    obtain ⟨e, -⟩ := anyChar_some.1 hc
    obtain ⟨rfl, rfl⟩ := List.cons.inj e
    rw [Option.map_eq_some_iff] at h
    obtain ⟨t, ht, -⟩ := h
    have hset : ∀ l : Str, matchSet l (l ++ '-' :: (n ++ post)) = none := by
      intro l
      unfold matchSet
      rw [lit_some.2 rfl]
      simp only
      rw [hlift]
      rfl
    rcases hv with rfl | rfl
    · rcases wingTail_iff.1 ht with k | k | k | k
      · rw [matchNamed_other (lit_none.2 (by simp))] at k; cases k
      · rw [matchNamed_other (lit_none.2 (by simp))] at k; cases k
      · rw [hset] at k; cases k
      · rw [matchSet_other (lit_none.2 (by simp))] at k; cases k
    · rcases wingTail_iff.1 ht with k | k | k | k
      · rw [matchNamed_other (lit_none.2 (by simp))] at k; cases k
      · rw [matchNamed_other (lit_none.2 (by simp))] at k; cases k
      · rw [matchSet_other (lit_none.2 (by simp))] at k; cases k
      · rw [hset] at k; cases k

/-- After a successful `loadFromCon` the wings of a jet are `None`, whatever the files hold; its type and
name are those of the root, and the lines printed those of `get_wings`. -/
theorem C154_jet {path : Str} {j j' : Jet} {out : List Str}
    (h : loadJet w read path j = (j', out, none)) :
    j'.wings = none ∧ getWings w read path = (out, none) ∧
    ∃ ty name, getRoot w read path = .ok (some (ty, name)) ∧ j'.type = some ty ∧ j'.name = some name := by
  unfold loadJet at h
  split at h
  · cases h
  · cases h
  · next ty name hroot =>
    simp only at h
    split at h
    · cases h
    · next hg =>
      cases h
      exact ⟨rfl, hg, ty, name, hroot, rfl, rfl⟩

/-- A failing one leaves the wings alone; type and name are old if there is no root, and new otherwise. -/
theorem C154_jet_fails {path : Str} {j j' : Jet} {out : List Str} {e : Err}
    (h : loadJet w read path j = (j', out, some e)) :
    j'.wings = j.wings ∧
    ((j' = j ∧ out = [] ∧ (getRoot w read path = .error e ∨ getRoot w read path = .ok none ∧ e = .typeError)) ∨
      ∃ ty name, getRoot w read path = .ok (some (ty, name)) ∧ j'.type = some ty ∧ j'.name = some name ∧
        getWings w read path = (out, some e)) := by
  unfold loadJet at h
  split at h
  · next hr =>
    cases h
    exact ⟨rfl, .inl ⟨rfl, rfl, .inl hr⟩⟩
  · next hr =>
    cases h
    exact ⟨rfl, .inl ⟨rfl, rfl, .inr ⟨hr, rfl⟩⟩⟩
  · next ty name hroot =>
    simp only at h
    split at h
    · next hg =>
      cases h
      exact ⟨rfl, .inr ⟨ty, name, hroot, rfl, rfl, hg⟩⟩
    · cases h

end

/-- A jet with a tweak file that creates wings and sets lifts of all kinds, and one whose second file is
missing. -/
def jetFile (path : Str) : Except Err Str :=
  if path = "/m/jet.con".toList then
    .ok "ObjectTemplate.create PlayerControlObject jet\nObjectTemplate.create Wing own\ninclude jet.tweak\n".toList
  else if path = "/m/bad.con".toList then
    .ok "ObjectTemplate.create PlayerControlObject bad\ninclude jet.tweak\ninclude lost.tweak\ninclude jet.tweak".toList
  else if path = "/m/jet.tweak".toList then
    .ok ("rem wings\nObjectTemplate.activeSafe Wing left_1 x\nObjectTemplate.setWingLift 2.50a\n" ++
      "ObjectTemplate.setFlapLift -.5\nObjectTemplate.setWingLift -3\nObjectTemplate.setFlapLift 7.\n").toList
  else .error .fileNotFoundError

example :
    getWings asciiWord jetFile "/m/jet.con".toList = (["ObjectTemplate.activeSafe Wing left_1".toList,
      "ObjectTemplate.setWingLift 2.50".toList, "ObjectTemplate.setFlapLift -.5".toList,
      "ObjectTemplate.setFlapLift 7".toList], none) ∧
    (getWings asciiWord jetFile "/m/bad.con".toList).1.length = 4 ∧
    (getWings asciiWord jetFile "/m/bad.con".toList).2 = some .fileNotFoundError ∧
    (loadJet asciiWord jetFile "/m/jet.con".toList newJet).1.wings = none ∧
    (loadJet asciiWord jetFile "/m/jet.con".toList newJet).2.2 = none ∧
    (loadJet asciiWord jetFile "/m/bad.con".toList newJet).1.wings = some [] ∧
    (loadJet asciiWord jetFile "/m/bad.con".toList newJet).1.name = some "bad".toList ∧
    asciiWord ' ' = false := by
  decide +kernel

/-- A template without an include but with a wing. -/
example : ∀ l ∈ ("ObjectTemplate.create Wing own".toList).splitOn '\n',
    search (matchInclude asciiWord) l = none ∧ search (matchWing asciiWord) l ≠ none := by
  decide +kernel

example : Digits "3".toList ∧ ∀ x, ("".toList).head? = some x → x ≠ '.' ∧ ¬ ('0' ≤ x ∧ x ≤ '9') :=
  ⟨⟨by decide, by decide⟩, fun x hx => (by cases hx)⟩

end Bf2
