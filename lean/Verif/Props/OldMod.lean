import Verif.OldModLemmas

/-!
# Finding objects of a mod: C109, C110
-/

namespace Bf2

theorem splitOn_joined {parts : List Str} (h0 : parts ≠ []) (h : ∀ p ∈ parts, '/' ∉ p) :
    (joined parts).splitOn '/' = parts := by
  exact List.splitOn_intercalate '/' h h0

theorem idxOf?_first {x : Str} {pre rest : List Str} (h : x ∉ pre) :
    (pre ++ x :: rest).idxOf? x = some pre.length := by
  induction pre with
  | nil => simp [List.idxOf?_cons]
  | cons y ys ih =>
    rw [List.mem_cons, not_or] at h
    rw [List.cons_append, List.idxOf?_cons, if_neg (by simpa using Ne.symm h.1), ih h.2]
    rfl

/-- The root is the path up to the part after the first `mods`, or to `mods` if that is the last; without
such a part it raises. -/
theorem C109_mod_root {parts : List Str} (h0 : parts ≠ []) (h : ∀ p ∈ parts, '/' ∉ p) :
    (∀ root, findModRoot (joined parts) = .ok root ↔ ∃ pre rest, parts = pre ++ "mods".toList :: rest ∧
      "mods".toList ∉ pre ∧ root = joined (pre ++ "mods".toList :: rest.take 1)) ∧
    ("mods".toList ∉ parts → findModRoot (joined parts) = .error .valueError) := by
  unfold findModRoot
  rw [splitOn_joined h0 h]
  simp only
  constructor
  · intro root
    by_cases hm : "mods".toList ∈ parts
    · obtain ⟨pre, rest, hp, hn⟩ := List.append_of_mem hm |>.elim fun _ _ => List.eq_append_cons_of_mem hm
      have hi : parts.idxOf? "mods".toList = some pre.length := by
        rw [hp, idxOf?_first hn]
      rw [hi]
      simp only [Except.ok.injEq]
      have ht : parts.take (pre.length + 2) = pre ++ "mods".toList :: rest.take 1 := by
        rw [hp, List.take_append]
        simp
      rw [ht]
      constructor
      · rintro rfl
        exact ⟨pre, rest, hp, hn, rfl⟩
      · rintro ⟨pre', rest', hp', hn', rfl⟩
        have hi' : parts.idxOf? "mods".toList = some pre'.length := by
          rw [hp', idxOf?_first hn']
        rw [hi] at hi'
        have hl : pre.length = pre'.length := by injection hi'
        obtain ⟨rfl, h2⟩ := List.append_inj (hp.symm.trans hp') hl
        obtain rfl : rest = rest' := by injection h2
        rfl
    · rw [List.idxOf?_eq_none_iff.2 hm]
      simp only [reduceCtorEq, false_iff]
      rintro ⟨pre, rest, rfl, -⟩
      simp at hm
  · intro hm
    rw [List.idxOf?_eq_none_iff.2 hm]

example : findModRoot "/games/bf2/mods/pr/objects/mods/x".toList = .ok "/games/bf2/mods/pr".toList ∧
    findModRoot "/games/bf2/mods".toList = .ok "/games/bf2/mods".toList ∧
    findModRoot "/games/bf2/Mods/pr".toList = .error .valueError := by decide +kernel

section
variable {w : Char → Bool} {read : Str → Except Err Str}

/-- What `get_root` returns for a command: if the character after `ObjectTemplate` is a space, the words
are counted wrong. -/
def rootOf (c : Char) (ty name : Str) : Str × Str :=
  if c = ' ' then ("create".toList, ty) else (ty, name)

theorem Creates.no_space (hw : w ' ' = false) {s ty name : Str} {c : Char} (h : Creates w s c ty name) :
    ' ' ∉ ty ∧ ' ' ∉ name := by
  obtain ⟨post, -, -, ht, -, hn, -⟩ := h
  refine ⟨objectTypes_space ty (objectTypes_iff.2 ht), fun hs => ?_⟩
  rw [hn _ hs] at hw
  cases hw

theorem createText_words {c : Char} {ty name : Str} (ht : ' ' ∉ ty) (hn : ' ' ∉ name) :
    wordAt (createText c ty name) 1 = .ok (rootOf c ty name).1 ∧
    wordAt (createText c ty name) 2 = .ok (rootOf c ty name).2 := by
  have e1 : (ty ++ ' ' :: name).splitOn ' ' = [ty, name] := by
    rw [List.splitOn_append_cons_self, List.splitOn_eq_singleton ht, List.splitOn_eq_singleton hn]
    rfl
  unfold wordAt rootOf createText
  by_cases hc : c = ' '
  · subst hc
    have : ("ObjectTemplate".toList ++ ' ' :: ("create ".toList ++ (ty ++ ' ' :: name))).splitOn ' ' =
        ["ObjectTemplate".toList, "create".toList, ty, name] := by
      rw [List.splitOn_append_cons_self, List.splitOn_eq_singleton (by decide),
        show "create ".toList ++ (ty ++ ' ' :: name) = "create".toList ++ ' ' :: (ty ++ ' ' :: name) from rfl,
        List.splitOn_append_cons_self, List.splitOn_eq_singleton (by decide), e1]
      rfl
    rw [this]
    exact ⟨rfl, rfl⟩
  · have : ("ObjectTemplate".toList ++ c :: ("create ".toList ++ (ty ++ ' ' :: name))).splitOn ' ' =
        ["ObjectTemplate".toList ++ c :: "create".toList, ty, name] := by
      rw [show "ObjectTemplate".toList ++ c :: ("create ".toList ++ (ty ++ ' ' :: name)) =
        ("ObjectTemplate".toList ++ c :: "create".toList) ++ ' ' :: (ty ++ ' ' :: name) from rfl,
        List.splitOn_append_cons_self, List.splitOn_eq_singleton, e1]
      · rfl
      · rw [List.mem_append, List.mem_cons]
        rintro (h | h | h)
        · exact absurd h (by decide)
        · exact hc h.symm
        · exact absurd h (by decide)
    rw [this]
    simp [hc]

/-- `get_root` returns the type and name of the first command, in the order of the lines, that creates an
object of one of six types, and `None` if there is none; it raises only if the file cannot be read. -/
theorem C110_root (hw : w ' ' = false) {path text : Str} (hr : read path = .ok text) :
    (getRoot w read path = .ok none ∧ ∀ l ∈ text.splitOn '\n', NoCreate w l) ∨
    ∃ pre l post c ty name, text.splitOn '\n' = pre ++ l :: post ∧ (∀ x ∈ pre, NoCreate w x) ∧
      FirstCreate w l c ty name ∧ getRoot w read path = .ok (some (rootOf c ty name)) := by
  unfold getRoot
  rw [hr]
  simp only
  induction text.splitOn '\n' with
  | nil => exact .inl ⟨rfl, by simp⟩
  | cons l ls ih =>
    unfold rootLoop
    rcases hs : search (matchCreate w) l with _ | g
    · have hl := searchCreate_none.1 hs
      simp only
      rcases ih with ⟨h1, h2⟩ | ⟨pre, l', post, c, ty, name, h1, h2, h3, h4⟩
      · exact .inl ⟨h1, List.forall_mem_cons.2 ⟨hl, h2⟩⟩
      · exact .inr ⟨l :: pre, l', post, c, ty, name, by rw [h1]; rfl,
          List.forall_mem_cons.2 ⟨hl, h2⟩, h3, h4⟩
    · obtain ⟨c, ty, name, hf, rfl⟩ := searchCreate_some.1 hs
      refine .inr ⟨[], l, ls, c, ty, name, rfl, by simp, hf, ?_⟩
      obtain ⟨_, s, -, hc, -⟩ := hf
      obtain ⟨ht, hn⟩ := hc.no_space hw
      obtain ⟨e1, e2⟩ := createText_words (c := c) ht hn
      simp only
      rw [e1]
      simp only
      rw [e2]

/-- Objects of type `SimpleObject` or `Engine` are not found in any file. -/
theorem C110_never_simple (hw : w ' ' = false) {path : Str} {r : Str × Str}
    (h : getRoot w read path = .ok (some r)) :
    r.1 ≠ "SimpleObject".toList ∧ r.1 ≠ "Engine".toList := by
  rcases hr : read path with e | text
  · unfold getRoot at h
    rw [hr] at h
    cases h
  · rcases C110_root hw hr with ⟨h1, -⟩ | ⟨_, _, _, c, ty, name, -, -, ⟨_, _, -, ⟨_, -, -, ht, -⟩, -⟩, h1⟩
    · rw [h] at h1; cases h1
    · rw [h] at h1
      obtain rfl : r = rootOf c ty name := by injection h1 with h1; injection h1
      unfold rootOf
      split
      · exact (by decide : "create".toList ≠ "SimpleObject".toList ∧ "create".toList ≠ "Engine".toList)
      · have := objectTypes_iff.2 ht
        revert this
        generalize ty = t
        intro ht
        have hall : ∀ t ∈ objectTypes, t ≠ "SimpleObject".toList ∧ t ≠ "Engine".toList := by decide
        exact hall t ht

/-! ### `get_object_path` -/

theorem isTemplate_iff {f : Str} : isTemplate f = true ↔ TemplateName f := by
  have key : ∀ e : Str, '.' ∉ e → ((f.splitOn '.').getLast? = some e ↔ (f = e ∨ ∃ a, f = a ++ '.' :: e)) := by
    intro e he
    by_cases hd : '.' ∈ f
    · obtain ⟨a, b, rfl, hb⟩ := last_split hd
      rw [List.splitOn_append_cons_self, List.splitOn_eq_singleton hb, List.getLast?_append]
      simp only [List.getLast?_singleton, Option.some_or, Option.some.injEq]
      constructor
      · rintro rfl
        exact .inr ⟨a, rfl⟩
      · rintro (rfl | ⟨a', h⟩)
        · simp at he
        · exact (last_split_unique h hb he).2
    · rw [List.splitOn_eq_singleton hd]
      simp only [List.getLast?_singleton, Option.some.injEq]
      constructor
      · exact .inl
      · rintro (rfl | ⟨a, rfl⟩)
        · rfl
        · simp at hd
  unfold isTemplate TemplateName
  simp only [Bool.or_eq_true, decide_eq_true_eq]
  rw [key _ (by decide), key _ (by decide)]
  constructor
  · rintro (h | h)
    · exact ⟨_, .inl rfl, h⟩
    · exact ⟨_, .inr rfl, h⟩
  · rintro ⟨e, rfl | rfl, h⟩
    · exact .inl h
    · exact .inr h

/-- The paths of the templates, in the order of `os.walk`. -/
def templates (tree : List (Str × List Str)) : List Str :=
  tree.flatMap fun d => (d.2.filter isTemplate).map (pathJoin d.1)

/-- `get_root` of the file gives this name. -/
def RootNamed (w : Char → Bool) (read : Str → Except Err Str) (path name : Str) : Prop :=
  ∃ ty, getRoot w read path = .ok (some (ty, name))

/-- Going through a list of paths. -/
def firstNamed (w : Char → Bool) (read : Str → Except Err Str) (name : Str) :
    List Str → Except Err (Option Str)
  | [] => .ok none
  | p :: ps =>
    match getRoot w read p with
    | .error e => .error e
    | .ok r => if r.map (·.2) = some name then .ok (some p) else firstNamed w read name ps

theorem objectInDir_append {dir name : Str} (files : List Str) (ps : List Str) :
    firstNamed w read name ((files.filter isTemplate).map (pathJoin dir) ++ ps) =
      match objectInDir w read dir name files with
      | .error e => .error e
      | .ok (some p) => .ok (some p)
      | .ok none => firstNamed w read name ps := by
  induction files with
  | nil => rfl
  | cons f fs ih =>
    unfold objectInDir
    by_cases hf : isTemplate f = true
    · rw [if_pos hf, List.filter_cons_of_pos hf, List.map_cons, List.cons_append, firstNamed]
      rcases getRoot w read (pathJoin dir f) with e | _ | ⟨ty, n⟩
      · rfl
      · exact ih
      · simp only [Option.map_some, Option.some.injEq]
        by_cases hn : n = name
        · rw [if_pos hn, if_pos hn]
        · rw [if_neg hn, if_neg hn]; exact ih
    · rw [if_neg hf, List.filter_cons_of_neg hf]
      exact ih

theorem getObjectPath_eq {name : Str} (tree : List (Str × List Str)) :
    getObjectPath w read name tree = firstNamed w read name (templates tree) := by
  induction tree with
  | nil => rfl
  | cons d ds ih =>
    obtain ⟨dir, files⟩ := d
    unfold getObjectPath templates
    rw [List.flatMap_cons, objectInDir_append]
    rcases objectInDir w read dir name files with e | _ | p
    · rfl
    · exact ih
    · rfl

/-- The root of the file, if it has one, has another name. -/
def NotNamed (w : Char → Bool) (read : Str → Except Err Str) (name p : Str) : Prop :=
  ∃ r, getRoot w read p = .ok r ∧ ∀ ty, r ≠ some (ty, name)

theorem firstNamed_some {name p : Str} {ps : List Str} : firstNamed w read name ps = .ok (some p) ↔
    ∃ pre post, ps = pre ++ p :: post ∧ (∀ q ∈ pre, NotNamed w read name q) ∧ RootNamed w read p name := by
  induction ps with
  | nil => simp [firstNamed]
  | cons q qs ih =>
    unfold firstNamed
    rcases hr : getRoot w read q with e | r
    · simp only [reduceCtorEq, false_iff]
      rintro ⟨_ | ⟨x, xs⟩, post, h, h1, h2⟩
      · obtain ⟨rfl, -⟩ := List.cons.inj h
        obtain ⟨ty, h2⟩ := h2
        rw [hr] at h2; cases h2
      · obtain ⟨rfl, -⟩ := List.cons.inj h
        obtain ⟨r, h1, -⟩ := h1 q (by simp)
        rw [hr] at h1; cases h1
    · simp only
      by_cases hn : r.map (·.2) = some name
      · rw [if_pos hn]
        simp only [Except.ok.injEq, Option.some.injEq]
        obtain ⟨⟨ty, n⟩, rfl, rfl⟩ := Option.map_eq_some_iff.1 hn
        constructor
        · rintro rfl
          exact ⟨[], qs, rfl, by simp, ty, hr⟩
        · rintro ⟨_ | ⟨x, xs⟩, post, h, h1, -⟩
          · exact (List.cons.inj h).1
          · obtain ⟨rfl, -⟩ := List.cons.inj h
            obtain ⟨r, h1, h2⟩ := h1 q (by simp)
            rw [hr] at h1
            cases h1
            exact absurd rfl (h2 ty)
      · rw [if_neg hn, ih]
        have hnn : NotNamed w read name q := ⟨r, hr, fun ty h => hn (by rw [h]; rfl)⟩
        constructor
        · rintro ⟨pre, post, rfl, h1, h2⟩
          exact ⟨q :: pre, post, rfl, List.forall_mem_cons.2 ⟨hnn, h1⟩, h2⟩
        · rintro ⟨_ | ⟨x, xs⟩, post, h, h1, h2⟩
          · obtain ⟨rfl, -⟩ := List.cons.inj h
            obtain ⟨ty, h2⟩ := h2
            rw [hr] at h2
            cases h2
            exact absurd rfl hn
          · obtain ⟨rfl, rfl⟩ := List.cons.inj h
            exact ⟨xs, post, rfl, fun y hy => h1 y (by simp [hy]), h2⟩

theorem firstNamed_none {name : Str} {ps : List Str} : firstNamed w read name ps = .ok none ↔
    ∀ q ∈ ps, NotNamed w read name q := by
  induction ps with
  | nil => simp [firstNamed]
  | cons q qs ih =>
    unfold firstNamed
    rw [List.forall_mem_cons, ← ih]
    rcases hr : getRoot w read q with e | r
    · simp only [reduceCtorEq, false_iff, not_and]
      rintro ⟨r, h, -⟩
      rw [hr] at h; cases h
    · simp only
      by_cases hn : r.map (·.2) = some name
      · rw [if_pos hn]
        simp only [Except.ok.injEq, reduceCtorEq, false_iff, not_and]
        obtain ⟨⟨ty, n⟩, rfl, rfl⟩ := Option.map_eq_some_iff.1 hn
        rintro ⟨r, h, h2⟩
        rw [hr] at h
        cases h
        exact absurd rfl (h2 ty)
      · rw [if_neg hn]
        have hnn : NotNamed w read name q := ⟨r, hr, fun ty h => hn (by rw [h]; rfl)⟩
        simp [hnn]

/-- `get_object_path` returns the first template, in the order of `os.walk`, whose root has the name; all
templates before it are read and must be readable. -/
theorem C110_object_path (name : Str) (tree : List (Str × List Str)) :
    (∀ p, getObjectPath w read name tree = .ok (some p) ↔ ∃ pre post, templates tree = pre ++ p :: post ∧
      (∀ q ∈ pre, NotNamed w read name q) ∧ RootNamed w read p name) ∧
    (getObjectPath w read name tree = .ok none ↔ ∀ q ∈ templates tree, NotNamed w read name q) ∧
    ∀ p, p ∈ templates tree ↔ ∃ d ∈ tree, ∃ f ∈ d.2, TemplateName f ∧ p = pathJoin d.1 f := by
  rw [getObjectPath_eq]
  refine ⟨fun p => firstNamed_some, firstNamed_none, fun p => ?_⟩
  simp only [templates, List.mem_flatMap, List.mem_map, List.mem_filter, isTemplate_iff]
  constructor
  · rintro ⟨d, hd, f, ⟨hf, ht⟩, rfl⟩
    exact ⟨d, hd, f, hf, ht, rfl⟩
  · rintro ⟨d, hd, f, hf, ht, rfl⟩
    exact ⟨d, hd, f, ⟨hf, ht⟩, rfl⟩

/-! ### `get_child_list` -/

/-- The commands a line of the template contributes: its own, then those of the file it includes. -/
def LineChildren (w : Char → Bool) (read : Str → Except Err Str) (folder line : Str) (p : List Str) :
    Prop :=
  ∃ own inc, p = own ++ inc ∧ LineCommand w line own ∧
    ((NoInclude w line ∧ inc = []) ∨
      ∃ stem c text parts, FirstInclude w line stem c ∧
        read (pathJoin folder (includedFile stem c)) = .ok text ∧
        List.Forall₂ (LineCommand w) (text.splitOn '\n') parts ∧ inc = parts.flatten)

theorem lineCommand_iff {line : Str} {p : List Str} :
    LineCommand w line p ↔ p = (search (matchCreate w) line).toList := by
  unfold LineCommand
  rcases hs : search (matchCreate w) line with _ | g
  · have := searchCreate_none.1 hs
    constructor
    · rintro (⟨-, rfl⟩ | ⟨c, ty, name, hf, -⟩)
      · rfl
      · rw [searchCreate_some.2 ⟨c, ty, name, hf, rfl⟩] at hs; cases hs
    · rintro rfl
      exact .inl ⟨this, rfl⟩
  · obtain ⟨c, ty, name, hf, rfl⟩ := searchCreate_some.1 hs
    constructor
    · rintro (⟨h, -⟩ | ⟨c', ty', name', hf', rfl⟩)
      · rw [searchCreate_none.2 h] at hs; cases hs
      · rw [searchCreate_some.2 ⟨c', ty', name', hf', rfl⟩] at hs
        injection hs with hs
        rw [hs]; rfl
    · rintro rfl
      exact .inr ⟨c, ty, name, hf, rfl⟩

theorem tweakChildren_iff {lines : List Str} {inc : List Str} :
    (∃ parts, List.Forall₂ (LineCommand w) lines parts ∧ inc = parts.flatten) ↔
      inc = tweakChildren w lines := by
  unfold tweakChildren
  induction lines generalizing inc with
  | nil => simp
  | cons l ls ih =>
    constructor
    · rintro ⟨parts, h, rfl⟩
      cases h with
      | @cons _ p _ ps h1 h2 =>
        rw [List.flatten_cons, ih.1 ⟨ps, h2, rfl⟩, lineCommand_iff.1 h1, List.filterMap_cons]
        rcases search (matchCreate w) l <;> rfl
    · rintro rfl
      obtain ⟨ps, h2, h3⟩ := ih.2 rfl
      refine ⟨(search (matchCreate w) l).toList :: ps, .cons (lineCommand_iff.2 rfl) h2, ?_⟩
      rw [List.flatten_cons, ← h3, List.filterMap_cons]
      rcases search (matchCreate w) l <;> rfl

theorem lineChildren_iff (hw : w ' ' = false) {folder l : Str} {p : List Str} :
    LineChildren w read folder l p ↔
      (search (matchInclude w) l = none ∧ p = (search (matchCreate w) l).toList) ∨
      ∃ g name text, search (matchInclude w) l = some g ∧ wordAt g 1 = .ok name ∧
        read (pathJoin folder name) = .ok text ∧
        p = (search (matchCreate w) l).toList ++ tweakChildren w (text.splitOn '\n') := by
  unfold LineChildren
  constructor
  · rintro ⟨own, inc, rfl, h1, ⟨h2, rfl⟩ | ⟨stem, c, text, parts, h2, h3, h4, rfl⟩⟩
    · exact .inl ⟨searchInclude_none.2 h2, by rw [List.append_nil]; exact lineCommand_iff.1 h1⟩
    · refine .inr ⟨_, _, text, searchInclude_some.2 ⟨stem, c, h2, rfl⟩, ?_, h3, ?_⟩
      · obtain ⟨_, _, -, ⟨hi, -⟩, -⟩ := h2
        exact includeText_word (hi.no_space hw)
      · rw [← lineCommand_iff.1 h1, ← tweakChildren_iff.1 ⟨parts, h4, rfl⟩]
  · rintro (⟨h1, rfl⟩ | ⟨g, name, text, h1, h2, h3, rfl⟩)
    · exact ⟨_, [], (List.append_nil _).symm, lineCommand_iff.2 rfl, .inl ⟨searchInclude_none.1 h1, rfl⟩⟩
    · obtain ⟨stem, c, hf, rfl⟩ := searchInclude_some.1 h1
      have hsp := hf
      obtain ⟨_, _, -, ⟨hi, -⟩, -⟩ := hsp
      rw [includeText_word (hi.no_space hw)] at h2
      injection h2 with h2
      subst h2
      obtain ⟨parts, h4, h5⟩ := tweakChildren_iff (w := w) (lines := text.splitOn '\n').2 rfl
      exact ⟨_, _, rfl, lineCommand_iff.2 rfl, .inr ⟨stem, c, text, parts, hf, h3, h4, h5⟩⟩

theorem childLoop_iff (hw : w ' ' = false) {folder : Str} {lines acc cs : List Str} :
    childLoop w read folder lines acc = .ok cs ↔
      ∃ parts, List.Forall₂ (LineChildren w read folder) lines parts ∧ cs = acc ++ parts.flatten := by
  induction lines generalizing acc with
  | nil => simp [childLoop, eq_comm]
  | cons l ls ih =>
    unfold childLoop
    dsimp only
    constructor
    · intro h
      split at h
      · next hi =>
        obtain ⟨parts, h1, rfl⟩ := ih.1 h
        exact ⟨_ :: parts, .cons ((lineChildren_iff hw).2 (.inl ⟨hi, rfl⟩)) h1, by simp⟩
      · next g hi =>
        split at h
        · cases h
        · next name hn =>
          split at h
          · cases h
          · next text ht =>
            obtain ⟨parts, h1, rfl⟩ := ih.1 h
            exact ⟨_ :: parts, .cons ((lineChildren_iff hw).2 (.inr ⟨g, name, text, hi, hn, ht, rfl⟩)) h1,
              by simp⟩
    · rintro ⟨parts, h, rfl⟩
      cases h with
      | @cons _ p _ ps h1 h2 =>
        rcases (lineChildren_iff hw).1 h1 with ⟨hi, rfl⟩ | ⟨g, name, text, hi, hn, ht, rfl⟩
        · rw [hi]
          simp only
          exact ih.2 ⟨ps, h2, by simp⟩
        · rw [hi]
          simp only
          rw [hn]
          simp only
          rw [ht]
          simp only
          exact ih.2 ⟨ps, h2, by simp⟩

/-- `get_child_list` returns the commands of the template and of the files it includes, in the order of
the lines; the root is among them. -/
theorem C110_children (hw : w ' ' = false) {path text : Str} (hr : read path = .ok text) (cs : List Str) :
    getChildList w read path = .ok cs ↔ ∃ parts,
      List.Forall₂ (LineChildren w read (dirname path)) (text.splitOn '\n') parts ∧ cs = parts.flatten := by
  unfold getChildList
  rw [hr]
  exact (childLoop_iff hw).trans (by simp)

/-- `loadFromCon` raises `TypeError` on a file without a command it knows. -/
theorem C110_load_without_root {path text : Str} (hr : read path = .ok text) (hw : w ' ' = false)
    (h : ∀ l ∈ text.splitOn '\n', NoCreate w l) : loadFromCon w read path = .error .typeError := by
  unfold loadFromCon
  rcases C110_root hw hr with ⟨h1, -⟩ | ⟨_, l, _, c, ty, name, h1, -, ⟨pre, s, h2, h3, -⟩, -⟩
  · rw [h1]
  · exact absurd h3 (h l (by rw [h1]; simp) pre s h2 c ty name)

end

/-- Word characters of ASCII. -/
def asciiWord (c : Char) : Bool := c.isAlphanum || c == '_'

/-- A mod with a jet, a crate that cannot be found, and a wheel in a tweak file. -/
def modFile (path : Str) : Except Err Str :=
  if path = "/m/objects/jet/jet.con".toList then
    .ok "rem the jet\nObjectTemplate.create PlayerControlObject jet_1\ninclude jet_1.tweak\n".toList
  else if path = "/m/objects/jet/jet_1.tweak".toList then
    .ok "ObjectTemplate.create Wing jet_wing\nObjectTemplate create Wheel jet_wheel".toList
  else if path = "/m/objects/crate.con".toList then .ok "ObjectTemplate.create SimpleObject crate".toList
  else .error .fileNotFoundError

def modTree : List (Str × List Str) :=
  [("/m/objects".toList, ["crate.con".toList, "read.me".toList]),
   ("/m/objects/jet".toList, ["jet.con".toList, "jet_1.tweak".toList])]

example :
    getRoot asciiWord modFile "/m/objects/jet/jet.con".toList =
      .ok (some ("PlayerControlObject".toList, "jet_1".toList)) ∧
    getRoot asciiWord modFile "/m/objects/crate.con".toList = .ok none ∧
    getObjectPath asciiWord modFile "jet_wing".toList modTree = .ok (some "/m/objects/jet/jet_1.tweak".toList) ∧
    getObjectPath asciiWord modFile "crate".toList modTree = .ok none ∧
    getChildList asciiWord modFile "/m/objects/jet/jet.con".toList =
      .ok ["ObjectTemplate.create PlayerControlObject jet_1".toList,
        "ObjectTemplate.create Wing jet_wing".toList, "ObjectTemplate create Wheel jet_wheel".toList] ∧
    loadFromCon asciiWord modFile "/m/objects/crate.con".toList = .error .typeError ∧
    asciiWord ' ' = false := by
  decide +kernel

end Bf2
