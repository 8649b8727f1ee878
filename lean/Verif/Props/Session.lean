import Verif.SessionSpec
import Verif.Props.History
import Verif.Props.Object

/-!
# Sessions: C108
-/

namespace Bf2

section
variable [Libm F64]

omit [Libm F64] in
/-- What an export leaves of the object: the mesh, or the mesh after a call of `update_boundaries`. -/
theorem exportObj_object {pl : Plat} {fs fs' : FS} {o o' : Obj F64} {name : Option Str} {u : Bool}
    {r : Option Err} (h : exportObj pl fs o name u = (fs', o', r)) :
    o'.isLoaded = o.isLoaded ∧ (o'.mesh = o.mesh ∨ o'.mesh = (updateBoundaries o.mesh).1) := by
  have hbd : ∀ m e, boundsFor o.mesh u = (m, e) → m = o.mesh ∨ m = (updateBoundaries o.mesh).1 := by
    intro m e hb
    unfold boundsFor at hb
    split at hb
    · rw [hb]; exact .inr rfl
    · cases hb; exact .inl rfl
  unfold exportObj at h
  simp only at h
  rcases hd : fs.ensureDir (exportName o.filename name) with ⟨fs1, _ | e1⟩
  · rw [hd] at h
    simp only at h
    rcases hb : boundsFor o.mesh u with ⟨m, _ | e2⟩
    · rw [hb] at h
      simp only at h
      unfold writeOut at h
      split at h
      · cases h; exact ⟨rfl, hbd _ _ hb⟩
      · split at h
        · cases h; exact ⟨rfl, hbd _ _ hb⟩
        · cases h; exact ⟨rfl, hbd _ _ hb⟩
    · rw [hb] at h
      cases h; exact ⟨rfl, hbd _ _ hb⟩
  · rw [hd] at h
    cases h; exact ⟨rfl, .inl rfl⟩

omit [Libm F64] in
/-- What an export does to the file system. -/
theorem exportObj_files {pl : Plat} {fs fs' : FS} {o o' : Obj F64} {name : Option Str} {u : Bool}
    {r : Option Err} (h : exportObj pl fs o name u = (fs', o', r)) :
    Grown fs fs' ∨ ∃ loc bytes, Written fs fs' (exportName o.filename name) loc bytes := by
  rcases r with _ | e
  · obtain ⟨⟨loc, hw⟩, -⟩ := C18_one_file h
    exact .inr ⟨loc, _, hw⟩
  · exact (C19_other_files_kept h).2

omit [Libm F64] in
theorem enter_loaded {pl : Plat} {fs : FS} {o : Obj F64} (h : o.isLoaded = true) :
    o.enter pl fs = .ok o := by
  unfold Obj.enter
  rw [if_neg]
  rw [h]
  simp

theorem Call.ready {pl : Plat} {s s' : Session} {t : Option Loc} (hs : Ready s) (h : Call pl s t s') :
    Ready s' := by
  have hset : ∀ {i : Nat} {o o' : Obj F64}, s.objs[i]? = some o →
      o'.isLoaded = true ∧ (∃ vs, Orderly vs o'.mesh) →
      ∀ x ∈ s.objs.set i o', x.isLoaded = true ∧ ∃ vs, Orderly vs x.mesh := by
    intro i o o' _ ho x hx
    rcases List.mem_or_eq_of_mem_set hx with hx | rfl
    · exact hs x hx
    · exact ho
  cases h with
  | opened h orderly =>
    intro x hx
    rcases List.mem_append.1 hx with hx | hx
    · exact hs x hx
    · rw [List.mem_singleton.1 hx]
      refine ⟨?_, _, orderly⟩
      unfold construct at h
      split at h
      · cases h
      · split at h
        · cases h
        · split at h
          · cases h
          · cases h; rfl
  | @entered i o hi o' h =>
    have ho := hs o (List.mem_of_getElem? hi)
    rw [enter_loaded ho.1] at h
    cases h
    exact hset hi ho
  | @edit i o hi m h =>
    obtain ⟨hl, vs, ho⟩ := hs o (List.mem_of_getElem? hi)
    exact hset hi ⟨hl, vs, (step_kept ho h).1⟩
  | @exported i o hi name u fs' o' r h =>
    obtain ⟨hl, vs, ho⟩ := hs o (List.mem_of_getElem? hi)
    obtain ⟨h1, h2⟩ := exportObj_object h
    refine hset hi ⟨h1.trans hl, vs, ?_⟩
    rcases h2 with h2 | h2
    · rw [h2]; exact ho
    · rw [h2]; exact (step_kept ho .update).1

/-- Whatever the session does, its meshes stay in good order. -/
theorem C108_meshes_stay_in_order {pl : Plat} {s s' : Session} {ts : List Loc} (hs : Ready s)
    (h : Run pl s ts s') : Ready s' := by
  induction h with
  | start => exact hs
  | call _ h ih => exact h.ready ih

theorem Call.files {pl : Plat} {s s' : Session} {t : Option Loc} (h : Call pl s t s') :
    s'.fs.cwd = s.fs.cwd ∧
    (∀ q, s.fs.node q = some .dir → s'.fs.node q = some .dir) ∧
    (∀ q, s.fs.node q ≠ none → s'.fs.node q ≠ none) ∧
    ∀ q, t ≠ some q → s'.fs.node q = s.fs.node q ∨ (s.fs.node q = none ∧ s'.fs.node q = some .dir) := by
  have hsame : ∀ q, s.fs.node q = s.fs.node q ∨ (s.fs.node q = none ∧ s.fs.node q = some .dir) :=
    fun _ => .inl rfl
  cases h with
  | opened h orderly => exact ⟨rfl, fun _ h => h, fun _ h => h, fun q _ => hsame q⟩
  | entered hi h => exact ⟨rfl, fun _ h => h, fun _ h => h, fun q _ => hsame q⟩
  | edit hi h => exact ⟨rfl, fun _ h => h, fun _ h => h, fun q _ => hsame q⟩
  | @exported i o hi name u fs' o' r h =>
    simp only
    rcases exportObj_files h with hg | ⟨loc, bytes, hw⟩
    · refine ⟨hg.1, fun q hq => ?_, fun q hq => ?_, fun q _ => hg.2 q⟩
      · rcases hg.2 q with g | ⟨g, -⟩
        · rw [g, hq]
        · rw [g] at hq; cases hq
      · rcases hg.2 q with g | ⟨g, -⟩
        · rw [g]; exact hq
        · exact absurd g hq
    · rw [hw.names]
      refine ⟨hw.cwd, fun q hq => ?_, fun q hq => ?_, fun q hq => ?_⟩
      · have : q ≠ loc := by rintro rfl; exact hw.no_dir hq
        rcases hw.others q this with g | ⟨g, -⟩
        · rw [g, hq]
        · rw [g] at hq; cases hq
      · by_cases hl : q = loc
        · rw [hl, hw.content]; simp
        · rcases hw.others q hl with g | ⟨g, -⟩
          · rw [g]; exact hq
          · exact absurd g hq
      · exact hw.others q fun he => hq (by rw [he]; rfl)

/-- A session deletes nothing: directories stay directories and what exists goes on existing.  A place
that no export of the session named holds what it held, or, if nothing was there, maybe a directory. -/
theorem C108_other_files_kept {pl : Plat} {s s' : Session} {ts : List Loc} (h : Run pl s ts s') :
    s'.fs.cwd = s.fs.cwd ∧
    (∀ q, s.fs.node q = some .dir → s'.fs.node q = some .dir) ∧
    (∀ q, s.fs.node q ≠ none → s'.fs.node q ≠ none) ∧
    ∀ q, q ∉ ts → s'.fs.node q = s.fs.node q ∨ (s.fs.node q = none ∧ s'.fs.node q = some .dir) := by
  induction h with
  | start => exact ⟨rfl, fun _ h => h, fun _ h => h, fun q _ => .inl rfl⟩
  | @call ts s1 s2 t _ h ih =>
    obtain ⟨a1, a2, a3, a4⟩ := ih
    obtain ⟨b1, b2, b3, b4⟩ := h.files
    refine ⟨b1.trans a1, fun q hq => b2 q (a2 q hq), fun q hq => b3 q (a3 q hq), fun q hq => ?_⟩
    rw [List.mem_append, not_or] at hq
    have hq2 : t ≠ some q := fun ht => hq.2 (by rw [ht]; simp)
    rcases b4 q hq2 with g | ⟨g, g'⟩
    · rw [g]; exact a4 q hq.1
    · rcases a4 q hq.1 with k | ⟨k, k'⟩
      · rw [k] at g; exact .inr ⟨g, g'⟩
      · rw [k'] at g; cases g

/-- What an export without exception wrote is what loading the same path gives, each float rounded to
binary32, however the session goes on, until the next export to that place. -/
theorem C108_last_export_loads {pl : Plat} {s s' : Session} (hs : Ready s) {i : Nat} {o o' : Obj F64}
    (hi : s.objs[i]? = some o) {name : Option Str} {u : Bool} {fs' : FS}
    (saved : exportObj pl s.fs o name u = (fs', o', none))
    (kind : kindOfName o'.filename = o'.mesh.kind)
    {loc : Loc} (place : fs'.resolve o'.filename = .ok loc)
    {ts : List Loc} (later : Run pl ⟨fs', s.objs.set i o'⟩ ts s') (untouched : loc ∉ ts) (fl : Flags) :
    construct pl s'.fs (some o'.filename) fl =
      .ok ⟨o'.filename, true, o'.mesh.map fun x => unpackF (packF x)⟩ := by
  obtain ⟨⟨loc', hw⟩, he, hf, -⟩ := C18_one_file saved
  rw [← hf] at hw
  obtain rfl : loc' = loc := by
    have := hw.names
    rw [place] at this
    injection this with this
    exact this.symm
  have hready : Ready ⟨fs', s.objs.set i o'⟩ := Call.ready hs (Call.exported hi saved)
  have hlt : i < s.objs.length := (List.getElem?_eq_some_iff.1 hi).1
  obtain ⟨-, vs, ho⟩ := hready o' (List.mem_of_getElem? (i := i) (List.getElem?_set_self hlt))
  obtain ⟨h1, h2, -, h4⟩ := C108_other_files_kept later
  have hres := resolve_mono h1 h2 _ _ place
  have hnode : s'.fs.node loc' = some (.file (exportMesh pl o'.mesh).bytes) := by
    rcases h4 loc' untouched with g | ⟨g, -⟩
    · rw [g]; exact hw.content
    · simp only at g
      rw [hw.content] at g; cases g
  have hload := C02_reload_of_export pl o'.mesh (exportMesh pl o'.mesh).bytes ho.wf
    (by rcases hx : exportMesh pl o'.mesh with ⟨b, e⟩; rw [hx] at he; simp only at he; rw [he])
  have hread : s'.fs.read o'.filename = .ok (exportMesh pl o'.mesh).bytes := by
    unfold FS.read
    rw [hres]
    simp only
    rw [hnode]
  rcases hn : o'.filename with _ | ⟨c, cs⟩
  · rw [hn] at place; cases place
  · unfold construct baseInit
    simp only
    rw [← hn, hread, kind]
    simp only
    rw [hload]

omit [Libm F64] in
/-- Entering a `with` block with a mesh of a session reads no file and changes nothing. -/
theorem C108_entering_reads_nothing {pl : Plat} {s : Session} (hs : Ready s) {o : Obj F64}
    (ho : o ∈ s.objs) (fs : FS) : o.enter pl fs = .ok o := enter_loaded (hs o ho).1

omit [Libm F64] in
/-- Entering a `with` block with an object that is not marked as loaded opens its file anew, as the
constructor does. -/
theorem C108_entering_unloaded {pl : Plat} {fs : FS} {o : Obj F64} (fl : Flags)
    (named : o.filename ≠ []) (unloaded : o.isLoaded = false)
    (kind : o.mesh.kind = kindOfName o.filename) :
    o.enter pl fs = construct pl fs (some o.filename) fl := by
  rcases o with ⟨_ | ⟨c, cs⟩, l, m⟩
  · exact absurd rfl named
  · cases unloaded
    unfold Obj.enter construct baseInit
    rw [if_pos ⟨named, rfl⟩, kind]

end

section
attribute [local instance] quarterTurn

/-- The mesh in the file of the example. -/
def sesMesh : Mesh F64 := twoGeoms ((List.range 24).map flt)

def sesFS : FS := fsWith [['w'], "a.staticmesh".toList] (exportMesh win sesMesh).bytes

/-- Opened. -/
def ses1 : Session := ⟨sesFS, [⟨"./a.staticmesh".toList, true, sesMesh⟩]⟩

/-- Moved. -/
def sesObj : Obj F64 := ⟨"./a.staticmesh".toList, true, (translate sesMesh [flt 1, flt 2, flt 3]).1⟩

def ses2 : Session := ⟨sesFS, [sesObj]⟩

/-- The export. -/
def sesOut : FS × Obj F64 × Option Err := exportObj win sesFS sesObj (some "d/b.StaticMesh".toList) true

def ses3 : Session := ⟨sesOut.1, [sesOut.2.1]⟩

/-- Turned after the export. -/
def ses4 : Session :=
  ⟨sesOut.1, [{ sesOut.2.1 with mesh := (rotate sesOut.2.1.mesh [flt 90, flt 0, flt 0]).1 }]⟩

/-- And exported back to the first file. -/
def sesOut2 : FS × Obj F64 × Option Err :=
  exportObj win sesOut.1
    { sesOut.2.1 with mesh := (rotate sesOut.2.1.mesh [flt 90, flt 0, flt 0]).1 }
    (some "./a.staticmesh".toList) false

def ses5 : Session := ⟨sesOut2.1, [sesOut2.2.1]⟩

theorem ses_begins : Run win ⟨sesFS, []⟩ [] ses2 := by
  refine .call (ts := []) (t := none) (.call (s1 := ⟨sesFS, []⟩) (s2 := ses1) (ts := []) (t := none) .start ?_) ?_
  · exact .opened (name := some "./a.staticmesh".toList) (fl := ⟨false, false, false⟩)
      (by decide +kernel) (twoGeoms_orderly ((List.range 24).map flt) rfl)
  · exact .edit (s := ses1) (i := 0) rfl (.translate [flt 1, flt 2, flt 3])

theorem ses_goes_on : Run win ses3 [[['w'], "a.staticmesh".toList]] ses5 := by
  have h := Call.exported (pl := win) (s := ses4) (i := 0) (fs' := sesOut2.1) (o' := sesOut2.2.1)
    (r := sesOut2.2.2) (name := some "./a.staticmesh".toList) (u := false) rfl rfl
  have hp : (sesOut2.1.resolve "./a.staticmesh".toList).toOption = some [['w'], "a.staticmesh".toList] := by
    decide +kernel
  refine .call (ts := []) (t := some [['w'], "a.staticmesh".toList])
    (.call (s2 := ses4) (ts := []) (t := none) .start ?_) ?_
  · exact .edit (s := ses3) (i := 0) rfl (.rotate [flt 90, flt 0, flt 0])
  · rw [← hp]; exact h

/-- The first export loads as it was, though the mesh was turned and exported elsewhere since. -/
example : ∃ m : Mesh F64,
    construct win ses5.fs (some "d/b.StaticMesh".toList) ⟨false, false, false⟩ =
      .ok ⟨"d/b.StaticMesh".toList, true, m⟩ ∧ m.vertices.take 4 = [flt 1, flt 3, flt 5, flt 3] := by
  have hr : Ready ses2 := C108_meshes_stay_in_order (by intro o ho; cases ho) ses_begins
  have hname : sesOut.2.1.filename = "d/b.StaticMesh".toList := by decide +kernel
  have := C108_last_export_loads (pl := win) hr (i := 0) (o := sesObj) (o' := sesOut.2.1) rfl
    (name := some "d/b.StaticMesh".toList) (u := true) (fs' := sesOut.1)
    (Prod.ext rfl (Prod.ext rfl (by decide +kernel))) (by decide +kernel)
    (loc := [['w'], ['d'], "b.StaticMesh".toList]) (by decide +kernel)
    (s' := ses5) ses_goes_on (by decide) ⟨false, false, false⟩
  rw [hname] at this
  exact ⟨_, this, by decide +kernel⟩

/-- A moved mesh marked as not loaded is read again: the move is lost. -/
example :
    let o : Obj F64 := { sesObj with isLoaded := false }
    o.filename ≠ [] ∧ o.mesh.kind = kindOfName o.filename ∧
    o.enter win sesFS = .ok ⟨"./a.staticmesh".toList, true, sesMesh⟩ ∧ o.mesh ≠ sesMesh := by
  decide +kernel

end

end Bf2
