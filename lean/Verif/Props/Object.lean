import Verif.ObjectLemmas
import Verif.Props.Format
import Verif.Props.Bounds

/-!
# Properties of the mesh object: constructor and `export` (C14 to C21)
-/

namespace Bf2

variable {F : Type} [FCodec F]

/-! ## Samples -/

/-- The file system with an empty current directory `/w`, and nothing else but the given file. -/
def fsWith (loc : Loc) (content : Bytes) : FS where
  node q := if q = [] ∨ q = [['w']] then some .dir else if q = loc then some (.file content) else none
  cwd := [['w']]

/-- The sample file of the repository in `/w`. -/
def boxFS : FS := fsWith [['w'], "box.staticmesh".toList] evilBox

/-- An object holding a mesh. -/
def objOf (m : Mesh F) : Obj F := ⟨"box.staticmesh".toList, true, m⟩

/-! ## C14: mesh kind follows the file extension -/

/-- Each flag says whether the file name has that extension, in any case. -/
theorem C14_kind_of_extension (p : Str) :
    ((kindOfName p).isSkinned = true ↔ ∃ e, ExtOf p e ∧ SameName e ".skinnedmesh".toList) ∧
    ((kindOfName p).isBundled = true ↔ ∃ e, ExtOf p e ∧ SameName e ".bundledmesh".toList) ∧
    ((kindOfName p).isStatic = true ↔ ∃ e, ExtOf p e ∧ SameName e ".staticmesh".toList) ∧
    ((kindOfName p).isCollision = true ↔ ∃ e, ExtOf p e ∧ SameName e ".collisionmesh".toList) := by
  unfold kindOfName
  simp only [decide_eq_true_eq]
  exact ⟨ext_iff p _ (by decide) (by decide), ext_iff p _ (by decide) (by decide),
    ext_iff p _ (by decide) (by decide), ext_iff p _ (by decide) (by decide)⟩

/-- At most one flag is set. -/
theorem C14_at_most_one (p : Str) :
    [(kindOfName p).isSkinned, (kindOfName p).isBundled, (kindOfName p).isStatic,
      (kindOfName p).isCollision].count true ≤ 1 := by
  unfold kindOfName
  simp only
  generalize lower (splitextExt p) = e
  have h : ∀ a b : Str, a ≠ b → e = a → e ≠ b := fun a b hab h1 h2 => hab (h1.symm.trans h2)
  by_cases h1 : e = ".skinnedmesh".toList
  · subst h1; decide
  · by_cases h2 : e = ".bundledmesh".toList
    · subst h2; decide
    · by_cases h3 : e = ".staticmesh".toList
      · subst h3; decide
      · rw [decide_eq_false h1, decide_eq_false h2, decide_eq_false h3]
        cases decide (e = ".collisionmesh".toList) <;> decide

/-- The flags depend only on the extension. -/
theorem C14_only_extension (p q : Str) (h : ∀ e, ExtOf p e ↔ ExtOf q e) :
    kindOfName p = kindOfName q := by
  have hpq : splitextExt p = splitextExt q := by
    by_cases hp : splitextExt p = []
    · by_cases hq : splitextExt q = []
      · rw [hp, hq]
      · exact (splitextExt_iff p _ hq).2 ((h _).2 ((splitextExt_iff q _ hq).1 rfl))
    · exact ((splitextExt_iff q _ hp).2 ((h _).1 ((splitextExt_iff p _ hp).1 rfl))).symm
  unfold kindOfName
  rw [hpq]

/-- With a file name, the keyword flags make no difference, and a loaded mesh has the kind of its
name; in particular `BundledMesh(name)` is `VisibleMesh(name)`. -/
theorem C14_flags_ignored (pl : Plat) (fs : FS) (name : Str) (h : name ≠ []) (fl fl' : Flags) :
    construct (F := F) pl fs (some name) fl = construct pl fs (some name) fl' ∧
    constructBundled (F := F) pl fs (some name) = construct pl fs (some name) fl := by
  cases name with
  | nil => exact absurd rfl h
  | cons c cs => exact ⟨rfl, rfl⟩

theorem C14_loaded_kind (pl : Plat) (fs : FS) (name : Option Str) (fl : Flags) (o : Obj F)
    (h : construct pl fs name fl = .ok o) :
    name = some o.filename ∧ o.mesh.kind = kindOfName o.filename := by
  match name with
  | none => cases h
  | some [] => cases h
  | some (c :: cs) =>
    unfold construct baseInit at h
    simp only at h
    split at h
    · cases h
    · split at h
      · cases h
      · rename_i hm
        cases h
        exact ⟨rfl, (C06_loaded_wf pl _ _ _ hm).2⟩

/-- Names as people write them, and two traps: a file called `.staticmesh` has no extension, and a
Kelvin sign is a `k`. -/
example : kindOfName "a.b/Evil_Box.StaticMesh".toList = staticKind ∧
    kindOfName "/x/kits.skinnedMesh".toList = skinnedKind ∧
    kindOfName "x.bundledmesh".toList = bundledKind ∧
    kindOfName "x/.staticmesh".toList = ⟨false, false, false, false⟩ ∧
    kindOfName "x.staticmesh/y".toList = ⟨false, false, false, false⟩ ∧
    kindOfName ("x.s".toList ++ [Char.ofNat 0x212A] ++ "innedmesh".toList) = skinnedKind := by
  decide +kernel

/-! ## C15: unknown extensions use the static layout -/

omit [FCodec F] in
theorem map_kind_run {k : Kind} {p p' : P (Mesh F)}
    (h : p = (fun m => { m with kind := k }) <$> p') (s : Bytes) :
    (match p s with
      | .error e => (.error e : Except Err (Mesh F))
      | .ok (m, []) => .ok m
      | .ok (_, _ :: _) => .error .attributeError) =
    (match (match p' s with
      | .error e => (.error e : Except Err (Mesh F))
      | .ok (m, []) => .ok m
      | .ok (_, _ :: _) => .error .attributeError) with
      | .error e => .error e
      | .ok m => .ok { m with kind := k }) := by
  rw [h, P.map_run]
  rcases p' s with e | ⟨m, _ | ⟨b, bs⟩⟩ <;> rfl

/-- Only the flags for skinned and bundled meshes matter for loading. -/
theorem C15_other_flags_irrelevant (pl : Plat) (k k' : Kind) (hs : k.isSkinned = k'.isSkinned)
    (hb : k.isBundled = k'.isBundled) (file : Bytes) :
    load (F := F) pl k file = match load (F := F) pl k' file with
      | .error e => .error e
      | .ok m => .ok { m with kind := k } := by
  obtain ⟨a, b, c, d⟩ := k
  obtain ⟨a', b', c', d'⟩ := k'
  simp only at hs hb
  subst hs hb
  have h : loadBody (F := F) pl ⟨a, b, c, d⟩ =
      (fun m => { m with kind := ⟨a, b, c, d⟩ }) <$> loadBody pl ⟨a, b, c', d'⟩ := by
    unfold loadBody
    simp only [map_bind, map_pure]
    rfl
  unfold load
  exact map_kind_run h file

/-- A file whose name has none of the extensions `.skinnedmesh` and `.bundledmesh` is loaded as a
`.staticmesh` is; the flags tell that its extension is unknown. -/
theorem C15_unknown_as_static (pl : Plat) (p q : Str) (file : Bytes)
    (h1 : ¬ ∃ e, ExtOf p e ∧ SameName e ".skinnedmesh".toList)
    (h2 : ¬ ∃ e, ExtOf p e ∧ SameName e ".bundledmesh".toList)
    (hq : ∃ e, ExtOf q e ∧ SameName e ".staticmesh".toList) :
    load (F := F) pl (kindOfName p) file = match load (F := F) pl (kindOfName q) file with
      | .error e => .error e
      | .ok m => .ok { m with kind := kindOfName p } := by
  obtain ⟨p1, p2, -, -⟩ := C14_kind_of_extension p
  obtain ⟨-, -, q3, -⟩ := C14_kind_of_extension q
  have hone := C14_at_most_one q
  rw [q3.2 hq] at hone
  refine C15_other_flags_irrelevant pl _ _ ?_ ?_ file
  · rw [Bool.eq_false_iff.2 fun h => h1 (p1.1 h)]
    cases hx : (kindOfName q).isSkinned
    · rfl
    · rw [hx] at hone
      revert hone
      cases (kindOfName q).isBundled <;> cases (kindOfName q).isCollision <;> decide
  · rw [Bool.eq_false_iff.2 fun h => h2 (p2.1 h)]
    cases hx : (kindOfName q).isBundled
    · rfl
    · rw [hx] at hone
      revert hone
      cases (kindOfName q).isSkinned <;> cases (kindOfName q).isCollision <;> decide

/-- The sample file under the name `box.mesh`. -/
example : (kindOfName "box.mesh".toList) = ⟨false, false, false, false⟩ ∧
    (load (F := F64) win (kindOfName "box.mesh".toList) evilBox).isOk := by decide +kernel

/-! ## C16: a mesh cannot be built without a file name -/

theorem C16_no_name (pl : Plat) (fs : FS) (fl : Flags) :
    construct (F := F) pl fs none fl = .error .attributeError ∧
    construct (F := F) pl fs (some []) fl = .error .attributeError := ⟨rfl, rfl⟩

/-- With a name that can be read and parsed it can. -/
example : (construct (F := F64) win boxFS (some "./box.staticmesh".toList)
    ⟨true, false, false⟩).isOk := by decide +kernel

/-! ## C17: export to a bare file name always fails -/

section
variable [FArith F]

/-- Also in the current directory of the mesh itself, also when the file exists. -/
theorem C17_bare_name (pl : Plat) (fs : FS) (o : Obj F) (name : Option Str) (u : Bool)
    (h : '/' ∉ exportName o.filename name) :
    exportObj pl fs o name u = (fs, o, some .fileNotFoundError) := by
  have hd : dirname (exportName o.filename name) = [] := by
    unfold dirname
    rw [pathSplit_bare h]
  have he : fs.ensureDir (exportName o.filename name) = (fs, some .fileNotFoundError) := by
    unfold FS.ensureDir
    rw [hd]
    rfl
  unfold exportObj
  simp only
  rw [he]

end

/-- The example of the README: load a file by its bare name, export it under another one. -/
example : ∃ o : Obj F64, construct win boxFS (some "box.staticmesh".toList) ⟨false, false, false⟩ = .ok o ∧
    (exportObj win boxFS o (some "box_offset.staticMesh".toList) true).2.2 =
      some .fileNotFoundError := by
  have h : (construct (F := F64) win boxFS (some "box.staticmesh".toList)
    ⟨false, false, false⟩).isOk := by decide +kernel
  rcases hc : construct (F := F64) win boxFS (some "box.staticmesh".toList)
    ⟨false, false, false⟩ with e | o
  · rw [hc] at h; cases h
  · exact ⟨o, rfl, by rw [C17_bare_name win boxFS o _ true (by
      show '/' ∉ "box_offset.staticMesh".toList
      decide)]⟩

/-! ## C18: successful export writes one file -/

section
variable [FArith F]

omit [FArith F] in
theorem writeOut_ok {pl : Plat} {fs fs' : FS} {o o' : Obj F} {name : Str}
    (h : writeOut pl fs o name = (fs', o', none)) :
    ∃ loc bytes, Written fs fs' name loc bytes ∧ exportMesh pl o.mesh = ⟨bytes, none⟩ ∧
      o' = { o with filename := name } := by
  unfold writeOut at h
  rcases hw : fs.openWrite name with e | ⟨fs1, l⟩
  · rw [hw] at h; simp at h
  · rw [hw] at h
    simp only at h
    rcases he : exportMesh pl o.mesh with ⟨bytes, _ | e⟩
    · rw [he] at h
      simp only [Prod.mk.injEq, and_true] at h
      obtain ⟨rfl, rfl⟩ := h
      exact ⟨l, bytes, openWrite_set hw bytes, rfl, rfl⟩
    · rw [he] at h; simp at h

/-- After a successful export the file that the target names holds exactly the serialised mesh (with
its bounds updated if that was asked for), all other files are untouched, only missing directories
may have appeared, and the file name of the mesh is the target. -/
theorem C18_one_file {pl : Plat} {fs fs' : FS} {o o' : Obj F} {name : Option Str} {u : Bool}
    (h : exportObj pl fs o name u = (fs', o', none)) :
    (∃ loc, Written fs fs' (exportName o.filename name) loc (exportMesh pl o'.mesh).bytes) ∧
    (exportMesh pl o'.mesh).err = none ∧ o'.filename = exportName o.filename name ∧
    (if u then updateBoundaries o.mesh = (o'.mesh, none) else o'.mesh = o.mesh) := by
  unfold exportObj at h
  simp only at h
  have hg := Grown.ensureDir fs (exportName o.filename name)
  rcases hd : fs.ensureDir (exportName o.filename name) with ⟨fs1, _ | e⟩
  · rw [hd] at h hg
    simp only at h hg
    rcases hb : boundsFor o.mesh u with ⟨m, _ | e⟩
    · rw [hb] at h
      simp only at h
      obtain ⟨loc, bytes, hw, he, rfl⟩ := writeOut_ok h
      simp only at he ⊢
      rw [he]
      refine ⟨⟨loc, hw.grown hg⟩, rfl, trivial, ?_⟩
      unfold boundsFor at hb
      cases u
      · simp only [Bool.false_eq_true, if_false, Prod.mk.injEq, and_true] at hb ⊢
        exact hb.symm
      · simpa using hb
    · rw [hb] at h; simp at h
  · rw [hd] at h; simp at h

/-- Loading the target afterwards parses exactly these bytes. -/
theorem C18_reload {pl : Plat} {fs fs' : FS} {o o' : Obj F} {name : Option Str} {u : Bool}
    (h : exportObj pl fs o name u = (fs', o', none)) (hne : o'.filename ≠ []) (fl : Flags) :
    construct (F := F) pl fs' (some o'.filename) fl =
      match load pl (kindOfName o'.filename) (exportMesh pl o'.mesh).bytes with
      | .error e => .error e
      | .ok m => .ok ⟨o'.filename, true, m⟩ := by
  obtain ⟨⟨loc, hw⟩, -, hf, -⟩ := C18_one_file h
  rw [← hf] at hw
  unfold construct
  rcases hx : o'.filename with _ | ⟨c, cs⟩
  · exact absurd hx hne
  · unfold baseInit
    simp only
    rw [← hx, hw.read]
    simp only
    rcases load pl (kindOfName o'.filename) (exportMesh pl o'.mesh).bytes <;> rfl

/-- Export to a relative path `d1/d2/.../name` succeeds when nothing is in the way, and makes exactly
the directories that are missing. -/
theorem C18_makes_directories {pl : Plat} {fs : FS} {o : Obj F} {dirs : List Str} {c : Str}
    (h0 : dirs ≠ []) (hp : ∀ d ∈ dirs, PlainName d) (hc : PlainName c) (hw : FreeWay fs dirs)
    (hnd : fs.node (fs.cwd ++ dirs ++ [c]) ≠ some .dir)
    {u : Bool} {m : Mesh F} (hb : boundsFor o.mesh u = (m, none))
    {bytes : Bytes} (he : exportMesh pl m = ⟨bytes, none⟩) :
    ∃ fs', exportObj pl fs o (some (joined (dirs ++ [c]))) u =
        (fs', ⟨joined (dirs ++ [c]), o.isLoaded, m⟩, none) ∧
      (∀ i, i ≤ dirs.length → fs'.node (fs.cwd ++ dirs.take i) = some .dir) ∧
      fs'.node (fs.cwd ++ dirs ++ [c]) = some (.file bytes) ∧
      ∀ q, (∀ i, i ≤ dirs.length → q ≠ fs.cwd ++ dirs.take i) → q ≠ fs.cwd ++ dirs ++ [c] →
        fs'.node q = fs.node q := by
  have hpc : ∀ d ∈ dirs ++ [c], PlainName d := by
    intro d hd
    rcases List.mem_append.1 hd with hd | hd
    · exact hp d hd
    · rw [List.mem_singleton.1 hd]; exact hc
  have hname : exportName o.filename (some (joined (dirs ++ [c]))) = joined (dirs ++ [c]) := by
    have := joined_ne (cs := dirs ++ [c]) (by simp) hpc
    unfold exportName
    rcases hj : joined (dirs ++ [c]) with _ | ⟨x, xs⟩
    · exact absurd hj this
    · rfl
  obtain ⟨fs1, e0, e1, e2, e3⟩ := ensureDir_joined h0 hp hc hw
  have hfresh : ∀ i, i ≤ dirs.length → fs.cwd ++ dirs ++ [c] ≠ fs.cwd ++ dirs.take i := by
    intro i hi heq
    have := congrArg List.length heq
    simp only [List.length_append, List.length_take, List.length_cons, List.length_nil] at this
    omega
  have hres : fs1.resolve (joined (dirs ++ [c])) = .ok (fs.cwd ++ dirs ++ [c]) := by
    rw [resolve_joined (by simp) hpc, walk_plain _ hpc, e1, List.append_assoc]
    intro i hi
    have hi' : i ≤ dirs.length := by simp at hi; omega
    rw [e1, List.take_append_of_le_length hi']
    exact e2 i hi'
  have hn1 : fs1.node (fs.cwd ++ dirs ++ [c]) ≠ some .dir := by rw [e3 _ hfresh]; exact hnd
  have how : fs1.openWrite (joined (dirs ++ [c])) =
      .ok (fs1.set (fs.cwd ++ dirs ++ [c]) (.file []), fs.cwd ++ dirs ++ [c]) := by
    unfold FS.openWrite
    rw [hres]
    simp only
  refine ⟨(fs1.set (fs.cwd ++ dirs ++ [c]) (.file [])).set (fs.cwd ++ dirs ++ [c]) (.file bytes),
    ?_, ?_, ?_, ?_⟩
  · unfold exportObj
    simp only
    rw [hname, e0]
    simp only
    rw [hb]
    simp only
    unfold writeOut
    rw [how]
    simp only
    rw [he]
  · intro i hi
    simp only [FS.set]
    rw [if_neg (fun e => hfresh i hi e.symm), if_neg (fun e => hfresh i hi e.symm)]
    exact e2 i hi
  · simp [FS.set]
  · intro q hq hq'
    simp only [FS.set]
    rw [if_neg hq', if_neg hq']
    exact e3 q hq

/-- Export to a path with a slash whose directory exists (absolute or relative, with `.`, `..` and
repeated slashes) succeeds and changes that file only. -/
theorem C18_existing_directory {pl : Plat} {fs : FS} {o : Obj F} {path : Str} {loc : Loc}
    (slash : '/' ∈ path) (place : fs.resolve path = .ok loc) (hnd : fs.node loc ≠ some .dir)
    {u : Bool} {m : Mesh F} (hb : boundsFor o.mesh u = (m, none))
    {bytes : Bytes} (he : exportMesh pl m = ⟨bytes, none⟩) :
    ∃ fs', exportObj pl fs o (some path) u = (fs', ⟨path, o.isLoaded, m⟩, none) ∧
      fs'.node loc = some (.file bytes) ∧ fs'.cwd = fs.cwd ∧
      ∀ q, q ≠ loc → fs'.node q = fs.node q := by
  have hname : exportName o.filename (some path) = path := by
    rcases path with _ | ⟨x, xs⟩
    · simp at slash
    · rfl
  have how : fs.openWrite path = .ok (fs.set loc (.file []), loc) := by
    unfold FS.openWrite
    rw [place]
    simp only
  refine ⟨(fs.set loc (.file [])).set loc (.file bytes), ?_, ?_, rfl, ?_⟩
  · unfold exportObj
    simp only
    rw [hname, ensureDir_resolved slash place]
    simp only
    rw [hb]
    simp only
    unfold writeOut
    rw [how]
    simp only
    rw [he]
  · simp [FS.set]
  · intro q hq
    simp only [FS.set]
    rw [if_neg hq, if_neg hq]

end

theorem boxFS_way : FreeWay boxFS [['a'], ['b']] := by
  refine ⟨by decide, 0, by decide, ?_, ?_⟩
  · intro i hi
    obtain rfl : i = 0 := by omega
    decide
  · intro i h1 h2
    have : i = 1 ∨ i = 2 := by simp at h2; omega
    rcases this with rfl | rfl <;> decide +kernel

/-- Such paths in the sample file system: absolute, relative with `.`, `..` and doubled slashes. -/
example : ∀ p ∈ ["/w/x.staticmesh", "./x.staticmesh", "/w//../w/x.staticmesh"],
    '/' ∈ p.toList ∧ boxFS.resolve p.toList = .ok [['w'], "x.staticmesh".toList] ∧
    boxFS.node [['w'], "x.staticmesh".toList] ≠ some .dir := by decide +kernel

theorem isOk_get {ε α : Type} {x : Except ε α} (h : x.isOk = true) : ∃ a, x = .ok a := by
  rcases x with e | a
  · cases h
  · exact ⟨a, rfl⟩

/-- The sample mesh, exported to `a/b/x.staticmesh`: the directories do not exist yet. -/
example : ∃ m : Mesh F64, load win staticKind evilBox = .ok m ∧
    PlainName ['a'] ∧ PlainName ['b'] ∧ PlainName "x.staticmesh".toList ∧
    FreeWay boxFS [['a'], ['b']] ∧ boxFS.node [['w'], ['a']] = none ∧
    joined [['a'], ['b'], "x.staticmesh".toList] = "a/b/x.staticmesh".toList ∧
    (∃ bytes, exportMesh win m = ⟨bytes, none⟩) ∧
    (updateBoundaries m).2 = none := by
  obtain ⟨m, hm⟩ := isOk_get (x := load (F := F64) win staticKind evilBox) (by decide +kernel)
  have h1 : (match load (F := F64) win staticKind evilBox with
    | .error _ => false
    | .ok m => decide ((exportMesh win m).err = none) && decide ((updateBoundaries m).2 = none)) = true := by
    decide +kernel
  rw [hm] at h1
  simp only [Bool.and_eq_true, decide_eq_true_eq] at h1
  refine ⟨m, hm, by unfold PlainName; decide, by unfold PlainName; decide,
    by unfold PlainName; decide, boxFS_way, by decide +kernel, by decide, ?_, h1.2⟩
  rcases he : exportMesh win m with ⟨b, e⟩
  rw [he] at h1
  obtain rfl : e = none := h1.1
  exact ⟨b, rfl⟩

/-! ## C19: a failing export destroys the old file -/

section
variable [FArith F]

/-- When serialisation raises after the target has been opened, the target holds exactly what had
been written up to then, whatever was in it before; the file name of the mesh is unchanged. -/
theorem C19_serialisation_raises {pl : Plat} {fs fs1 : FS} {o : Obj F} {name : Option Str} {u : Bool}
    {m : Mesh F} {e : Err} (hd : fs.ensureDir (exportName o.filename name) = (fs1, none))
    (hb : boundsFor o.mesh u = (m, none)) (he : (exportMesh pl m).err = some e)
    {loc : Loc} (hr : fs1.resolve (exportName o.filename name) = .ok loc)
    (hnd : fs1.node loc ≠ some .dir) :
    ∃ fs', exportObj pl fs o name u = (fs', { o with mesh := m }, some e) ∧
      Written fs fs' (exportName o.filename name) loc (exportMesh pl m).bytes := by
  have hg := Grown.ensureDir fs (exportName o.filename name)
  rw [hd] at hg
  have how : fs1.openWrite (exportName o.filename name) = .ok (fs1.set loc (.file []), loc) := by
    unfold FS.openWrite
    rw [hr]
    simp only
  refine ⟨(fs1.set loc (.file [])).set loc (.file (exportMesh pl m).bytes), ?_,
    (openWrite_set how _).grown hg⟩
  unfold exportObj
  simp only
  rw [hd]
  simp only
  rw [hb]
  simp only
  unfold writeOut
  rw [how]
  simp only
  rcases hx : exportMesh pl m with ⟨b, er⟩
  rw [hx] at he
  simp only at he
  subst he
  rfl

/-- When updating the bounds raises, no file is touched. -/
theorem C19_update_raises {pl : Plat} {fs fs1 : FS} {o : Obj F} {name : Option Str}
    {m : Mesh F} {e : Err} (hd : fs.ensureDir (exportName o.filename name) = (fs1, none))
    (hb : updateBoundaries o.mesh = (m, some e)) :
    exportObj pl fs o name true = (fs1, { o with mesh := m }, some e) ∧ Grown fs fs1 := by
  have hg := Grown.ensureDir fs (exportName o.filename name)
  rw [hd] at hg
  refine ⟨?_, hg⟩
  unfold exportObj boundsFor
  simp only [if_true]
  rw [hd]
  simp only
  rw [hb]

/-- Whatever the exception, only the target file is affected. -/
theorem C19_other_files_kept {pl : Plat} {fs fs' : FS} {o o' : Obj F} {name : Option Str} {u : Bool}
    {e : Err} (h : exportObj pl fs o name u = (fs', o', some e)) :
    o'.filename = o.filename ∧ (Grown fs fs' ∨
      ∃ loc bytes, Written fs fs' (exportName o.filename name) loc bytes) := by
  have hg := Grown.ensureDir fs (exportName o.filename name)
  unfold exportObj at h
  simp only at h
  rcases hd : fs.ensureDir (exportName o.filename name) with ⟨fs1, _ | e1⟩
  · rw [hd] at h hg
    simp only at h
    rcases hb : boundsFor o.mesh u with ⟨m, _ | e2⟩
    · rw [hb] at h
      simp only at h
      unfold writeOut at h
      rcases hw : fs1.openWrite (exportName o.filename name) with e3 | ⟨fs2, l⟩
      · rw [hw] at h
        simp only [Prod.mk.injEq] at h
        obtain ⟨rfl, rfl, -⟩ := h
        exact ⟨rfl, Or.inl hg⟩
      · rw [hw] at h
        simp only at h
        rcases he : exportMesh pl m with ⟨bytes, _ | e4⟩
        · rw [he] at h; simp at h
        · rw [he] at h
          simp only [Prod.mk.injEq] at h
          obtain ⟨rfl, rfl, -⟩ := h
          exact ⟨rfl, Or.inr ⟨l, bytes, (openWrite_set hw bytes).grown hg⟩⟩
    · rw [hb] at h
      simp only [Prod.mk.injEq] at h
      obtain ⟨rfl, rfl, -⟩ := h
      exact ⟨rfl, Or.inl hg⟩
  · rw [hd] at h hg
    simp only [Prod.mk.injEq] at h
    obtain ⟨rfl, rfl, -⟩ := h
    exact ⟨rfl, Or.inl hg⟩

end

/-- A mesh with a single index overwrites the good file it may have come from with a part. -/
example :
    let bad : Mesh F64 := { tiny.map unpackF with indexnum := 1, index := .one 0 }
    let r := exportObj win boxFS (objOf bad) (some "./box.staticmesh".toList) false
    boxFS.ensureDir "./box.staticmesh".toList = (boxFS, none) ∧
    boxFS.resolve "./box.staticmesh".toList = .ok [['w'], "box.staticmesh".toList] ∧
    boxFS.node [['w'], "box.staticmesh".toList] = some (.file evilBox) ∧
    r.2.2 = some .typeError ∧
    r.1.node [['w'], "box.staticmesh".toList] = some (.file (exportMesh win bad).bytes) ∧
    (load (F := F64) win staticKind (exportMesh win bad).bytes).isOk = false := by
  refine ⟨?_, by decide +kernel, by decide +kernel, by decide +kernel, by decide +kernel,
    by decide +kernel⟩
  unfold FS.ensureDir
  rw [if_pos (by decide +kernel)]

/-! ## C20: export without a name rewrites the source path -/

section
variable [FArith F]

theorem C20_own_name (pl : Plat) (fs : FS) (o : Obj F) (u : Bool) :
    exportObj pl fs o none u = exportObj pl fs o (some o.filename) u ∧
    exportObj pl fs o (some []) u = exportObj pl fs o (some o.filename) u := by
  have h : exportName o.filename (some o.filename) = o.filename := by
    unfold exportName
    split
    · rename_i h; injection h with h; exact h.symm
    · rfl
  unfold exportObj
  simp only
  rw [h]
  exact ⟨rfl, rfl⟩

end

/-- So loading a file and exporting it without a name rewrites the same bytes to it. -/
theorem C20_rewrites_source {pl : Plat} {fs fs' : FS} {name : Option Str} {fl : Flags}
    {o o' : Obj F64} {file : Bytes}
    (hc : construct pl fs name fl = .ok o) (hf : fs.read o.filename = .ok file)
    (h1 : o.mesh.indexnum ≠ 1) (hs : NoSignalling pl o.mesh.kind file)
    (h : exportObj pl fs o none false = (fs', o', none)) :
    o' = o ∧ fs'.read o.filename = .ok file := by
  have hl : load pl o.mesh.kind file = .ok o.mesh := by
    match name with
    | none => cases hc
    | some [] => cases hc
    | some (c :: cs) =>
      unfold construct baseInit at hc
      simp only at hc
      split at hc
      · cases hc
      · rename_i content hr
        split at hc
        · cases hc
        · rename_i m hm
          cases hc
          simp only at hf ⊢
          rw [hr] at hf
          obtain rfl : content = file := by injection hf
          rw [(C06_loaded_wf pl _ _ _ hm).2]
          exact hm
  have he := C01_unmodified_export_identical pl _ file o.mesh hl h1 hs
  obtain ⟨⟨loc, hw⟩, -, hn, hb⟩ := C18_one_file h
  simp only [Bool.false_eq_true, if_false] at hb
  rw [hb, he] at hw
  refine ⟨?_, hw.read⟩
  unfold exportObj at h
  simp only at h
  rcases hd : fs.ensureDir (exportName o.filename none) with ⟨fs1, _ | e⟩
  · rw [hd] at h
    simp only [boundsFor, Bool.false_eq_true, if_false] at h
    obtain ⟨_, _, _, _, rfl⟩ := writeOut_ok h
    rfl
  · rw [hd] at h; simp at h

/-! ## C21: export changes at most bounds and file name -/

section
variable [FArith F]

theorem C21_only_bounds_and_name {pl : Plat} {fs fs' : FS} {o o' : Obj F} {name : Option Str}
    {u : Bool} (h : exportObj pl fs o name u = (fs', o', none)) (z : Vec3 F) :
    o'.isLoaded = o.isLoaded ∧ o'.mesh.eraseBounds z = o.mesh.eraseBounds z ∧
      (u = false → o'.mesh = o.mesh) := by
  obtain ⟨-, -, -, hb⟩ := C18_one_file h
  refine ⟨?_, ?_, ?_⟩
  · unfold exportObj at h
    simp only at h
    rcases hd : fs.ensureDir (exportName o.filename name) with ⟨fs1, _ | e⟩
    · rw [hd] at h
      simp only at h
      rcases hx : boundsFor o.mesh u with ⟨m, _ | e⟩
      · rw [hx] at h
        obtain ⟨_, _, _, _, rfl⟩ := writeOut_ok h
        rfl
      · rw [hx] at h; simp at h
    · rw [hd] at h; simp at h
  · cases u
    · simp only [Bool.false_eq_true, if_false] at hb
      rw [hb]
    · simp only [if_true] at hb
      have := update_erase z o.mesh
      rw [hb] at this
      exact this
  · rintro rfl
    simpa using hb

end

/-- A successful export that changes the bounds. -/
example :
    let r := exportObj win boxFS (objOf (boxed (flt 0) boxedVerts)) (some "./y.staticmesh".toList) true
    r.2.2 = none ∧ r.2.1.filename = "./y.staticmesh".toList ∧
    r.2.1.mesh ≠ boxed (flt 0) boxedVerts := by decide +kernel

end Bf2
