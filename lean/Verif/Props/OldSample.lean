import Verif.OldSampleLemmas
import Verif.Props.Object
import Verif.Props.OldFormat

/-!
# `LoadBF2Mesh` by file name: C106
-/

namespace Bf2

variable {F : Type} [FCodec F]

/-- `names` are the entries of the directory `dir`. -/
def IsListing (fs : FS) (dir : Str) (names : List Str) : Prop :=
  ∃ loc, fs.resolve dir = .ok loc ∧ fs.node loc = some .dir ∧
    ∀ n, n ∈ names ↔ n ≠ [] ∧ '/' ∉ n ∧ (fs.node (loc ++ [n])).isSome

/-- The name of a sample file: the extension begins with `.samp`. -/
def SampleName (n : Str) : Prop := ∃ e, ExtOf n (".samp".toList ++ e)

/-- The kind of mesh is that of the extension, up to case; any other extension gives none. -/
theorem C106_kind_of_extension (pl : Plat) (fs : FS) (path : Str) (o : OldMesh F)
    (h : oldLoadPath pl fs path = .ok o) :
    (o.kind.isSkinned = true ↔ ∃ e, ExtOf path e ∧ SameName e ".skinnedmesh".toList) ∧
    (o.kind.isBundled = true ↔ ∃ e, ExtOf path e ∧ SameName e ".bundledmesh".toList) ∧
    (o.kind.isStatic = true ↔ ∃ e, ExtOf path e ∧ SameName e ".staticmesh".toList) ∧
    o.kind.isCollision = false := by
  have hk : o.kind = oldKind path := by
    unfold oldLoadPath at h
    split at h
    · cases h
    · exact oldLoad_kind h
  obtain ⟨h1, h2, h3, -⟩ := C14_kind_of_extension path
  rw [hk]
  exact ⟨h1, h2, h3, rfl⟩

theorem sampleName_iff (n : Str) : SampleName n ↔ (splitextExt n).take 5 = ".samp".toList := by
  constructor
  · rintro ⟨e, he⟩
    rw [(splitextExt_iff n _ (by simp)).2 he]
    rfl
  · intro h
    refine ⟨(splitextExt n).drop 5, ?_⟩
    rw [← h, List.take_append_drop]
    refine (splitextExt_iff n _ ?_).1 rfl
    intro hn
    rw [hn] at h
    cases h

theorem sampleStep_none (fs : FS) (dir n : Str) : sampleStep fs dir n = none ↔ ¬ SampleName n := by
  rw [sampleName_iff]
  unfold sampleStep
  by_cases h : (splitextExt n).take 5 = ".samp".toList
  · simp only [h, if_true, not_true, iff_false]
    split
    · simp
    · split
      · simp
      · split
        · simp
        · split <;> simp
  · simp only [h, if_false, not_false_iff]

theorem sampleLoop_none (fs : FS) (dir : Str) (names : List Str) :
    sampleLoop fs dir names = none ↔ ∀ n ∈ names, ¬ SampleName n := by
  induction names with
  | nil => simp [sampleLoop]
  | cons n ns ih =>
    rw [sampleLoop, List.forall_mem_cons, ← ih, ← sampleStep_none fs dir n]
    rcases sampleStep fs dir n with _ | e <;> simp

theorem IsListing.ok {fs : FS} {dir : Str} {names : List Str} (h : IsListing fs dir names) :
    listdirErr fs dir = none := by
  obtain ⟨loc, h1, h2, -⟩ := h
  unfold listdirErr
  rw [h1]
  simp only
  rw [h2]

/-- A path without directory: `os.listdir('')` raises, whatever is in the current directory. -/
theorem C106_bare_name (pl : Plat) (fs : FS) (names : List Str) (path : Str) (h : '/' ∉ path)
    (o : OldMesh F) (ho : oldLoadPath pl fs path = .ok o) :
    oldLoadSamples (F := F) pl fs names path = .error .fileNotFoundError := by
  have hd : dirname path = [] := by unfold dirname; rw [pathSplit_bare h]
  unfold oldLoadSamples
  rw [ho, hd]
  rfl

/-- Loading with samples gives a mesh exactly if loading without does, the path has a directory, and
no entry of the directory is named as a sample file; it is then the same mesh. -/
theorem C106_samples_iff (pl : Plat) (fs : FS) (names : List Str) (path : Str) (o : OldMesh F)
    (listing : '/' ∈ path → IsListing fs (dirname path) names) :
    oldLoadSamples pl fs names path = .ok o ↔
      oldLoadPath pl fs path = .ok o ∧ '/' ∈ path ∧ ∀ n ∈ names, ¬ SampleName n := by
  by_cases hs : '/' ∈ path
  · rw [← sampleLoop_none fs (dirname path)]
    unfold oldLoadSamples
    rw [(listing hs).ok]
    rcases oldLoadPath (F := F) pl fs path with e | m
    · simp
    · rcases sampleLoop fs (dirname path) names with _ | e <;> simp [hs]
  · simp only [hs, false_and, and_false, iff_false]
    rcases hm : oldLoadPath (F := F) pl fs path with e | m
    · unfold oldLoadSamples; rw [hm]; simp
    · rw [C106_bare_name pl fs names path hs m hm]; simp

/-- The extensions of sample files: `.samples`, or `.samp..._gl...` with digits `g`, `l`. -/
def SampleExt (e : Str) : Prop :=
  e = ".samples".toList ∨ ∃ a c d r, e = ".samp".toList ++ a ++ '_' :: c :: d :: r ∧ '_' ∉ a ∧
    c.isDigit = true ∧ d.isDigit = true

theorem sampleStep_file {fs : FS} {dir n e : Str} (he : ExtOf n e) (hs : SampleExt e) :
    sampleStep fs dir n = some (loadSample fs (pathJoin dir n)) := by
  have h0 : e ≠ [] := by
    rcases hs with rfl | ⟨a, c, d, r, rfl, -⟩ <;> simp
  unfold sampleStep
  rw [(splitextExt_iff n e h0).2 he]
  rcases hs with rfl | ⟨a, c, d, r, rfl, ha, hc, hd⟩
  · rfl
  · have ht : (".samp".toList ++ a ++ '_' :: c :: d :: r).take 5 = ".samp".toList := rfl
    have hu : ∀ x : Char, x.isDigit = true → (x == '_') = false := by
      rintro x hx
      by_contra h
      obtain rfl : x = '_' := by simpa using h
      exact absurd hx (by decide)
    have hp : '_' ∉ ".samp".toList ++ a := by
      rw [List.mem_append]
      rintro (h | h)
      · exact absurd h (by decide)
      · exact ha h
    have hne : ".samp".toList ++ a ++ '_' :: c :: d :: r ≠ ".samples".toList := by
      intro h
      have : '_' ∈ ".samples".toList := by rw [← h]; simp
      exact absurd this (by decide)
    obtain ⟨q, qs, hq⟩ := List.exists_cons_of_ne_nil (List.splitOn_ne_nil '_' r)
    have hsp : ((".samp".toList ++ a ++ '_' :: c :: d :: r).splitOn '_')[1]? = some (c :: d :: q) := by
      rw [List.splitOn_append_cons_self, List.splitOn_eq_singleton hp,
        List.splitOn_cons_eq_if_modifyHead, hu c hc, List.splitOn_cons_eq_if_modifyHead, hu d hd, hq]
      rfl
    dsimp only
    rw [if_pos ht, if_neg hne, hsp]
    simp [intAt, intChar, hc, hd]

/-- The first entry, in the order of the listing, that is named as a sample file is a well named file:
`NameError`. -/
theorem C106_sample_file_raises (pl : Plat) (fs : FS) (pre post : List Str) (n e path : Str)
    (o : OldMesh F) (ho : oldLoadPath pl fs path = .ok o)
    (listing : IsListing fs (dirname path) (pre ++ n :: post)) (first : ∀ x ∈ pre, ¬ SampleName x)
    (ext : ExtOf n e) (he : SampleExt e)
    (file : ∀ loc, fs.resolve (dirname path) = .ok loc → fs.node (loc ++ [n]) ≠ some .dir) :
    oldLoadSamples (F := F) pl fs (pre ++ n :: post) path = .error .nameError := by
  have hok := listing.ok
  obtain ⟨loc, h1, h2, h3⟩ := listing
  obtain ⟨hn, hs, hx⟩ := (h3 n).1 (by simp)
  have hdots : n ≠ ['.'] ∧ n ≠ ['.', '.'] := by
    obtain ⟨dir, base, s, hn', -, -, -, -, -, c, hc, hcd⟩ := ext
    have : c ∈ n := by rw [hn']; simp [hc]
    constructor <;>
    · rintro rfl
      simp at this
      exact hcd this
  have hread : loadSample fs (pathJoin (dirname path) n) = .nameError := by
    unfold loadSample FS.read
    rw [resolve_join h1 h2 hn hs hdots.1 hdots.2]
    simp only
    have := file loc h1
    rcases hnode : fs.node (loc ++ [n]) with _ | _ | b
    · rw [hnode] at hx; cases hx
    · exact absurd hnode this
    · rfl
  have hl : ∀ pre : List Str, (∀ x ∈ pre, ¬ SampleName x) →
      sampleLoop fs (dirname path) (pre ++ n :: post) = some .nameError := by
    intro pre
    induction pre with
    | nil =>
      intro _
      rw [List.nil_append, sampleLoop, sampleStep_file ext he, hread]
    | cons x xs ih =>
      intro hp
      rw [List.cons_append, sampleLoop, (sampleStep_none fs _ x).2 (hp x (by simp))]
      exact ih fun y hy => hp y (by simp [hy])
  unfold oldLoadSamples
  rw [ho]
  simp only
  rw [hok]
  simp only
  rw [hl pre first]

/-- What stands between the first underscore of `e` and the next, or the end. -/
def SamplePart (e x : Str) : Prop := '_' ∉ x ∧ ∃ a, '_' ∉ a ∧
  (e = a ++ '_' :: x ∨ ∃ r, e = a ++ '_' :: (x ++ '_' :: r))

theorem splitOn_part {e x : Str} (h : SamplePart e x) : (e.splitOn '_')[1]? = some x := by
  obtain ⟨hx, a, ha, rfl | ⟨r, rfl⟩⟩ := h
  · rw [List.splitOn_append_cons_self, List.splitOn_eq_singleton ha, List.splitOn_eq_singleton hx]
    rfl
  · rw [List.splitOn_append_cons_self, List.splitOn_eq_singleton ha, List.splitOn_append_cons_self,
      List.splitOn_eq_singleton hx]
    rfl

theorem samples_raise {pl : Plat} {fs : FS} {pre post : List Str} {n path : Str} {o : OldMesh F} {err : Err}
    (ho : oldLoadPath pl fs path = .ok o) (listing : IsListing fs (dirname path) (pre ++ n :: post))
    (first : ∀ x ∈ pre, ¬ SampleName x) (h : sampleStep fs (dirname path) n = some err) :
    oldLoadSamples (F := F) pl fs (pre ++ n :: post) path = .error err := by
  have hok := listing.ok
  have hl : ∀ pre : List Str, (∀ x ∈ pre, ¬ SampleName x) →
      sampleLoop fs (dirname path) (pre ++ n :: post) = some err := by
    intro pre
    induction pre with
    | nil =>
      intro _
      rw [List.nil_append, sampleLoop, h]
    | cons x xs ih =>
      intro hp
      rw [List.cons_append, sampleLoop, (sampleStep_none fs _ x).2 (hp x (by simp))]
      exact ih fun y hy => hp y (by simp [hy])
  unfold oldLoadSamples
  rw [ho]
  simp only
  rw [hok]
  simp only
  rw [hl pre first]

/-- The first entry named as a sample file is badly named: without underscore, or with nothing or a single
digit up to the next one, `IndexError`; with another character than a digit in one of the two places,
`ValueError`. -/
theorem C106_bad_sample_name (pl : Plat) (fs : FS) (pre post : List Str) (n e path : Str)
    (o : OldMesh F) (ho : oldLoadPath pl fs path = .ok o)
    (listing : IsListing fs (dirname path) (pre ++ n :: post)) (first : ∀ x ∈ pre, ¬ SampleName x)
    (ext : ExtOf n (".samp".toList ++ e)) (other : e ≠ "les".toList) :
    ('_' ∉ e → oldLoadSamples (F := F) pl fs (pre ++ n :: post) path = .error .indexError) ∧
    (SamplePart e [] → oldLoadSamples (F := F) pl fs (pre ++ n :: post) path = .error .indexError) ∧
    (∀ c, SamplePart e [c] → c.isDigit = true →
      oldLoadSamples (F := F) pl fs (pre ++ n :: post) path = .error .indexError) ∧
    (∀ c x, SamplePart e (c :: x) → c.isDigit = false →
      oldLoadSamples (F := F) pl fs (pre ++ n :: post) path = .error .valueError) ∧
    (∀ c d x, SamplePart e (c :: d :: x) → c.isDigit = true → d.isDigit = false →
      oldLoadSamples (F := F) pl fs (pre ++ n :: post) path = .error .valueError) := by
  have hx : splitextExt n = ".samp".toList ++ e := (splitextExt_iff n _ (by simp)).2 ext
  have ht : (".samp".toList ++ e).take 5 = ".samp".toList := rfl
  have hne : ".samp".toList ++ e ≠ ".samples".toList := fun h =>
    other (List.append_cancel_left (as := ".samp".toList) (h.trans rfl))
  have hpart : ∀ {x}, SamplePart e x → ((".samp".toList ++ e).splitOn '_')[1]? = some x := by
    rintro x ⟨h1, a, h2, h3⟩
    refine splitOn_part ⟨h1, ".samp".toList ++ a, ?_, ?_⟩
    · rw [List.mem_append]
      rintro (h | h)
      · exact absurd h (by decide)
      · exact h2 h
    · rcases h3 with rfl | ⟨r, rfl⟩
      · exact .inl (List.append_assoc _ _ _).symm
      · exact .inr ⟨r, (List.append_assoc _ _ _).symm⟩
  have step : ∀ {x err}, ((".samp".toList ++ e).splitOn '_')[1]? = some x →
      (match intAt x 0 with
        | some e => some e
        | none => match intAt x 1 with
          | some e => some e
          | none => some (loadSample fs (pathJoin (dirname path) n))) = some err →
      sampleStep fs (dirname path) n = some err := by
    intro x err h1 h2
    unfold sampleStep
    rw [hx]
    dsimp only
    rw [if_pos ht, if_neg hne, h1]
    exact h2
  refine ⟨fun h => ?_, fun h => ?_, fun c h hc => ?_, fun c x h hc => ?_, fun c d x h hc hd => ?_⟩ <;>
    refine samples_raise ho listing first ?_
  · have hno : '_' ∉ ".samp".toList ++ e := by
      rw [List.mem_append]
      rintro (h' | h')
      · exact absurd h' (by decide)
      · exact h h'
    unfold sampleStep
    rw [hx]
    dsimp only
    rw [if_pos ht, if_neg hne, List.splitOn_eq_singleton hno]
    rfl
  · exact step (hpart h) rfl
  · refine step (hpart h) ?_
    simp [intAt, intChar, hc]
  · refine step (hpart h) ?_
    simp [intAt, intChar, hc]
  · refine step (hpart h) ?_
    simp [intAt, intChar, hc, hd]

/-- A directory like that of `/repo/tests`, the files all holding the mesh. -/
def sampleFS (names : List Str) : FS where
  node q := if q = [] ∨ q = [['M']] then some .dir
    else if ∃ n ∈ names, q = [['M'], n] then some (.file evilBox) else none
  cwd := []

def boxNames : List Str := ["evil_box.staticmesh".toList, "evil_box.samples".toList]

example : (oldLoadSamples (F := F64) win (sampleFS boxNames) boxNames "M/evil_box.staticmesh".toList).map
      (fun _ => ()) = .error .nameError ∧
    (oldLoadPath (F := F64) win (sampleFS boxNames) "M/evil_box.staticmesh".toList).toOption.isSome ∧
    (oldLoadSamples (F := F64) win (sampleFS (boxNames.take 1)) (boxNames.take 1)
      "M/evil_box.staticmesh".toList).toOption.map (·.vertnum) = some 25 ∧
    (sampleStep (sampleFS []) ['M'] "a.samp_x0".toList = some .valueError) ∧
    (sampleStep (sampleFS []) ['M'] "a.samp_1".toList = some .indexError) ∧
    (sampleStep (sampleFS []) ['M'] "a.samp".toList = some .indexError) ∧
    (sampleStep (sampleFS []) ['M'] "a.samp_10".toList = some .fileNotFoundError) ∧
    (sampleStep (sampleFS []) ['M'] "a.SAMPLES".toList = none) := by
  decide +kernel

example : IsListing (sampleFS boxNames) (dirname "M/evil_box.staticmesh".toList) boxNames ∧
    ExtOf "evil_box.samples".toList ".samples".toList ∧ SampleExt ".samples".toList ∧
    ¬ SampleName "evil_box.staticmesh".toList ∧ SampleExt ".samp_10".toList := by
  refine ⟨⟨[['M']], by decide +kernel, by decide +kernel, fun n => ?_⟩, ?_, .inl rfl, ?_,
    .inr ⟨[], '1', '0', [], rfl, by decide, by decide, by decide⟩⟩
  · constructor
    · intro h
      simp only [boxNames, List.mem_cons, List.not_mem_nil, or_false] at h
      rcases h with rfl | rfl <;> decide +kernel
    · rintro ⟨-, -, h⟩
      unfold sampleFS at h
      simp only at h
      rw [if_neg (by simp)] at h
      split at h
      · next hm =>
        obtain ⟨m, hm, he⟩ := hm
        simp only [List.cons_append, List.nil_append, List.cons.injEq, and_true, true_and] at he
        rw [he]; exact hm
      · cases h
  · exact (splitextExt_iff _ _ (by decide)).1 (by decide +kernel)
  · rw [sampleName_iff]; decide +kernel

/-- The five cases of `C106_bad_sample_name`. -/
example : '_' ∉ "ler".toList ∧ SamplePart "_".toList [] ∧ SamplePart "_1_0".toList ['1'] ∧
    SamplePart "_x0".toList ['x', '0'] ∧ SamplePart "le_1x_3".toList ['1', 'x'] ∧
    ExtOf "a.samp_1_0".toList (".samp".toList ++ "_1_0".toList) :=
  ⟨by decide, ⟨by decide, [], by decide, .inl rfl⟩, ⟨by decide, [], by decide, .inr ⟨['0'], rfl⟩⟩,
    ⟨by decide, [], by decide, .inl rfl⟩, ⟨by decide, ['l', 'e'], by decide, .inr ⟨['3'], rfl⟩⟩,
    (splitextExt_iff _ _ (by decide)).1 (by decide +kernel)⟩

end Bf2
