import Verif.OldStagesSpec
import Verif.OldStagesLemmas
import Verif.Props.OldFormat
import Verif.Props.OldBox

/-!
# C133: the readers and writers of single parts in the deprecated module
-/

namespace Bf2

section
variable {F : Type} [FCodec F]

/-- The last writer, which opens the file fifteen times, does what writing the mesh in one go does, also
when an exception ends it. -/
theorem C133_save (pl : Plat) (fs : FS) (o : OldMesh F) (path : Str) :
    writeParts pl fs o path 15 = oldSavePath pl fs o path := by
  rw [writeParts_eq pl fs o path (by omega) (by omega), partsOut_save]
  rfl

/-- Both outcomes: into a directory that exists, to a bare name, and with a number that does not fit. -/
example : (writeParts win boxFS ((tiny.map unpackF).old : OldMesh F64) "./a.staticmesh".toList 15).2 = none ∧
    (writeParts win boxFS ((tiny.map unpackF).old : OldMesh F64) "a.staticmesh".toList 15).2 =
      some .fileNotFoundError ∧
    (writeParts win boxFS { ((tiny.map unpackF).old : OldMesh F64) with u2 := 2 ^ 31 } "./a.staticmesh".toList 15).2 =
      some .structError ∧
    (writeParts win boxFS { ((tiny.map unpackF).old : OldMesh F64) with u2 := 2 ^ 31 } "./a.staticmesh".toList 12).2 =
      none := by
  decide +kernel

/-- The last reader reads what the loader reads, and raises what it raises. -/
theorem C133_load (pl : Plat) (k : Kind) (file : Bytes) :
    match oldLoad (F := F) pl k file with
    | .ok o => ∃ r, readParts pl k 15 file = .ok (o.upTo 15, r)
    | .error e => readParts (F := F) pl k 15 file = .error e := by
  have h := readParts_load (F := F) pl k file
  unfold oldLoad
  rcases he : oldLoadBody (F := F) pl k file with e | ⟨o, r⟩
  · rw [he] at h
    exact h
  · rw [he] at h
    exact ⟨r, h⟩

/-- Both outcomes: the sample of the repository, and its first 2000 bytes. -/
example : (oldLoad (F := F64) win staticKind evilBox).isOk = true ∧
    (oldLoad (F := F64) win staticKind (evilBox.take 2000)).isOk = false := by decide +kernel

/-- What a writer leaves in the file begins with what every earlier one would have left, and if it does not
raise then neither do they. -/
theorem C133_prefix {pl : Plat} {fs fs' : FS} {o : OldMesh F} {path : Str} {n k : Nat} (one : 1 ≤ n)
    (le : n ≤ k) (last : k ≤ 15) (written : writeParts pl fs o path k = (fs', none)) :
    ∃ fs'' loc a b, writeParts pl fs o path n = (fs'', none) ∧ Written fs fs' path loc (a ++ b) ∧
      Written fs fs'' path loc a := by
  rw [writeParts_eq pl fs o path (by omega) last] at written
  rw [writeParts_eq pl fs o path one (by omega)]
  unfold storeOut at written ⊢
  have hg := Grown.ensureDir fs path
  rcases hd : fs.ensureDir path with ⟨fs1, _ | e⟩
  · rw [hd] at written hg
    simp only at written ⊢
    rcases ho : fs1.openWrite path with e | ⟨fs2, loc⟩
    · rw [ho] at written
      cases written
    · rw [ho] at written
      simp only [Prod.mk.injEq] at written
      obtain ⟨rfl, h⟩ := written
      obtain ⟨h1, ⟨b, hb⟩, -⟩ := partsOut_ok pl o h le
      refine ⟨_, loc, _, b, by rw [h1], ?_, (openWrite_set ho _).grown hg⟩
      rw [hb]
      exact (openWrite_set ho _).grown hg
  · rw [hd] at written
    cases written
end

/-- The writer of thirteen parts and the writer of three. -/
example : (writeParts win boxFS ((tiny.map unpackF).old : OldMesh F64) "./a.staticmesh".toList 13).2 = none ∧
    ((writeParts win boxFS ((tiny.map unpackF).old : OldMesh F64) "./a.staticmesh".toList 13).1.read
      "./a.staticmesh".toList).toOption.map List.length = some 111 ∧
    ((writeParts win boxFS ((tiny.map unpackF).old : OldMesh F64) "./a.staticmesh".toList 3).1.read
      "./a.staticmesh".toList).toOption.map List.length = some 25 := by
  decide +kernel

theorem parts_stored {pl : Plat} {fs fs1 : FS} {o : OldMesh F64} {m : Mesh F64} {path : Str} (shows : Shows o m)
    (wf : MeshWF m) (range : InRange pl m) (dir : fs.ensureDir path = (fs1, none)) {loc : Loc}
    (names : fs1.resolve path = .ok loc) (free : fs1.node loc ≠ some .dir) {n : Nat} (one : 1 ≤ n) (last : n ≤ 15)
    (full : n = 15 → ¬ FirstEmpty m.lods) :
    ∃ fs' b, writeParts pl fs o path n = (fs', none) ∧ Written fs fs' path loc b ∧
      ∀ k' : Kind, k'.isSkinned = o.kind.isSkinned → k'.isBundled = o.kind.isBundled →
        ∀ r, readParts pl k' n (b ++ r) = .ok ((m.map stored).old.upTo n, r) := by
  have how : fs1.openWrite path = .ok (fs1.set loc (.file []), loc) := by
    unfold FS.openWrite
    rw [names]
    simp only
  have hg := Grown.ensureDir fs path
  rw [dir] at hg
  refine ⟨_, (partsOut pl o n).bytes, ?_, (openWrite_set how _).grown hg, fun k' h1 h2 r => ?_⟩
  · rw [writeParts_eq pl fs o path one last]
    unfold storeOut
    rw [dir]
    simp only
    rw [how]
    simp only
    rw [(parts_read_back shows wf range last full []).1]
  · rw [readParts_kind pl h1 h2]
    exact (parts_read_back shows wf range last full r).2

theorem shown_full {o : OldMesh F64}
    (h : ∀ l, (o.geoms.flatMap (·.lods)).head? = some l → l.materials ≠ []) : ¬ FirstEmpty o.shown.lods := by
  have e : o.shown.lods = (o.geoms.flatMap (·.lods)).map OldLod.shown := by
    simp only [Mesh.lods, OldMesh.shown, List.flatMap_map, List.map_flatMap]
    rfl
  rw [e]
  rintro ⟨l, h1, h2⟩
  rw [List.head?_map] at h1
  obtain ⟨l', h3, rfl⟩ := Option.map_eq_some_iff.1 h1
  exact h l' h3 h2

/-- A mesh object whose counts agree and whose numbers fit their fields: every writer succeeds, and the reader
of as many parts, whichever of the flags that do not matter are set, reads back those parts of it, with the
floats rounded, and nothing more; so it does from every longer file that begins so.  The last needs a
material in the first lod. -/
theorem C133_read_back {pl : Plat} {fs fs1 : FS} {o : OldMesh F64} {path : Str} (wf : OldWF o)
    (range : OldInRange pl o) (dir : fs.ensureDir path = (fs1, none)) {loc : Loc}
    (names : fs1.resolve path = .ok loc) (free : fs1.node loc ≠ some .dir) :
    ∃ m : Mesh F64, Shows o m ∧ ∀ n, 1 ≤ n → n ≤ 15 →
      (n = 15 → ∀ l, (o.geoms.flatMap (·.lods)).head? = some l → l.materials ≠ []) →
      ∃ fs' b, writeParts pl fs o path n = (fs', none) ∧ Written fs fs' path loc b ∧
        ∀ k' : Kind, k'.isSkinned = o.kind.isSkinned → k'.isBundled = o.kind.isBundled →
          ∀ r, readParts pl k' n (b ++ r) = .ok ((m.map stored).old.upTo n, r) :=
  ⟨_, wf.shows range.vattrs, fun _ one last full =>
    parts_stored (wf.shows range.vattrs) wf.shown range.shown dir names free one last
      (fun h => shown_full (full h))⟩

/-- A mesh just loaded: every part read back is the one it has. -/
theorem C133_loaded {pl : Plat} {k : Kind} {file : Bytes} {o : OldMesh F64} (loaded : oldLoad pl k file = .ok o)
    {fs fs1 : FS} {path : Str} (dir : fs.ensureDir path = (fs1, none)) {loc : Loc}
    (names : fs1.resolve path = .ok loc) (free : fs1.node loc ≠ some .dir) {n : Nat} (one : 1 ≤ n) (last : n ≤ 15)
    (not_one : o.vertices.length ≠ 1) :
    ∃ fs' b, writeParts pl fs o path n = (fs', none) ∧ Written fs fs' path loc b ∧
      ∀ k' : Kind, k'.isSkinned = k.isSkinned → k'.isBundled = k.isBundled →
        ∀ r, readParts pl k' n (b ++ r) = .ok (o.upTo n, r) := by
  obtain ⟨part, -, m, -, hm, hf, rfl⟩ := C83_loads_only pl k file o loaded not_one
  obtain ⟨hw, rfl⟩ := C06_loaded_wf pl k part m hm
  have := parts_stored (o := m.old) rfl hw (C07_integers_in_range pl _ part m hm) dir names free one last
    (fun _ => hf)
  rwa [show m.map stored = m from fixed_map (loaded_floats hm)] at this

/-- The sample of the repository, written to a name in the current directory; read back by an object with no
flag set, as the tests do. -/
example : ∃ o : OldMesh F64, oldLoad win staticKind evilBox = .ok o ∧ o.vertices.length ≠ 1 ∧
    boxFS.ensureDir "./a.staticmesh".toList = (boxFS, none) ∧
    (∃ loc, boxFS.resolve "./a.staticmesh".toList = .ok loc ∧ boxFS.node loc ≠ some .dir) ∧
    (⟨false, false, false, false⟩ : Kind).isSkinned = staticKind.isSkinned ∧
    (⟨false, false, false, false⟩ : Kind).isBundled = staticKind.isBundled ∧
    (o.upTo 14).geoms ≠ (o.upTo 15).geoms ∧ o.vertnum = 25 := by
  obtain ⟨o, ho⟩ := isOk_get (x := oldLoad (F := F64) win staticKind evilBox) (by decide +kernel)
  have h : (oldLoad (F := F64) win staticKind evilBox).toOption.map (fun o =>
      (decide (o.vertices.length ≠ 1), decide ((o.upTo 14).geoms ≠ (o.upTo 15).geoms), o.vertnum)) =
      some (true, true, 25) := by decide +kernel
  rw [ho] at h
  simp only [Except.toOption, Option.map_some, Option.some.injEq, Prod.mk.injEq, decide_eq_true_eq] at h
  obtain ⟨h1, h2, h3⟩ := h
  refine ⟨o, ho, h1, ?_, ⟨[['w'], "a.staticmesh".toList], by decide +kernel, by decide +kernel⟩, rfl, rfl, h2, h3⟩
  unfold FS.ensureDir
  rw [if_pos (by decide +kernel)]

/-- `C133_read_back` is about `Box()` of the old tests, with the flag of a static mesh. -/
example : OldWF (boxOf staticKind) ∧ OldInRange win (boxOf staticKind) ∧
    ∀ l, ((boxOf staticKind).geoms.flatMap (·.lods)).head? = some l → l.materials ≠ [] := by
  refine ⟨boxOf_wf rfl rfl, boxOf_range win _, fun l hl => ?_⟩
  cases hl
  exact List.cons_ne_nil _ _

end Bf2
