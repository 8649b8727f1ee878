import Verif.FailedLemmas
import Verif.Props.History
import Verif.Props.Object

/-!
# C144: a file left by an `export` that raised cannot be loaded

C19 says which bytes are left.  Here: for a mesh whose counts agree with its lists they are never a mesh.
-/

namespace Bf2

section
variable {F : Type} [FCodec F]

/-- **C144.** `export` of a mesh whose counts agree with its lists raises `struct.error`, or a `TypeError`
for a bare index. -/
theorem C144_errors (pl : Plat) (m : Mesh F) (counts : MeshWF m) {e : Err}
    (h : (exportMesh pl m).err = some e) :
    e = .structError ∨ e = .typeError ∧ ∃ i, m.index = .one i := PackOnly.mesh counts e h

/-- **C144.** With a list of indices: exactly if some number does not fit its field. -/
theorem C144_raises_iff (pl : Plat) (m : Mesh F) (counts : MeshWF m) {ix : List Int}
    (many : m.index = .many ix) : (exportMesh pl m).err = some .structError ↔ ¬ InRange pl m := by
  rw [← exportMesh_err counts many]
  constructor
  · intro h
    rw [h]
    simp
  · intro h
    rcases he : (exportMesh pl m).err with _ | e
    · exact absurd he h
    · rcases C144_errors pl m counts he with rfl | ⟨-, i, hi⟩
      · rfl
      · rw [many] at hi
        cases hi

/-- **C144.** What is left in the file makes the loader raise `struct.error`. -/
theorem C144_not_loadable (pl : Plat) (m : Mesh F) (counts : MeshWF m) (h : (exportMesh pl m).err ≠ none) :
    load (F := F) pl m.kind (exportMesh pl m).bytes = .error .structError := by
  rw [exportMesh_map] at h ⊢
  rw [load_map]
  have := (Follows.mesh pl (m.map FCodec.pack) (counts.map _)).err h
  rw [load_error (k := m.kind) this]
  rfl

end

/-- **C144.** An `export` that gets as far as opening its file: either it raises nothing, and the file loads as
the mesh with its floats rounded, or it raises, and the file does not load. -/
theorem C144_loads_iff {pl : Plat} {fs fs1 : FS} {o : Obj F64} {name : Option Str} {u : Bool} {m : Mesh F64}
    (hd : fs.ensureDir (exportName o.filename name) = (fs1, none)) (hb : boundsFor o.mesh u = (m, none))
    {loc : Loc} (hr : fs1.resolve (exportName o.filename name) = .ok loc) (hnd : fs1.node loc ≠ some .dir)
    (counts : MeshWF m) (kind : kindOfName (exportName o.filename name) = m.kind)
    (named : exportName o.filename name ≠ []) (fl : Flags) :
    ∃ fs' o' r, exportObj pl fs o name u = (fs', o', r) ∧
      (r = none ∧ construct pl fs' (some (exportName o.filename name)) fl =
          .ok ⟨exportName o.filename name, true, m.map fun x => unpackF (packF x)⟩ ∨
        r ≠ none ∧ construct (F := F64) pl fs' (some (exportName o.filename name)) fl =
          .error .structError) := by
  have made : ∀ {fs' : FS} {bytes : Bytes}, Written fs fs' (exportName o.filename name) loc bytes →
      construct (F := F64) pl fs' (some (exportName o.filename name)) fl =
        match load pl m.kind bytes with
        | .error e => .error e
        | .ok m => .ok ⟨exportName o.filename name, true, m⟩ := by
    intro fs' bytes hw
    unfold construct baseInit
    rcases hx : exportName o.filename name with _ | ⟨c, cs⟩
    · exact absurd hx named
    · simp only
      rw [← hx, hw.read, kind]
      simp only
      rcases load (F := F64) pl m.kind bytes with e | m' <;> rfl
  rcases he : (exportMesh pl m).err with _ | e
  · have hx : ∃ fs' o', exportObj pl fs o name u = (fs', o', none) := by
      have how : fs1.openWrite (exportName o.filename name) = .ok (fs1.set loc (.file []), loc) := by
        unfold FS.openWrite
        rw [hr]
        simp only
      unfold exportObj
      simp only
      rw [hd]
      simp only
      rw [hb]
      simp only
      unfold writeOut
      rw [how]
      simp only
      rcases hm : exportMesh pl m with ⟨bs, e⟩
      rw [hm] at he
      simp only at he
      subst he
      exact ⟨_, _, rfl⟩
    obtain ⟨fs', o', hx⟩ := hx
    refine ⟨fs', o', none, hx, .inl ⟨rfl, ?_⟩⟩
    obtain ⟨⟨loc', hw⟩, -, -, hu⟩ := C18_one_file hx
    have hm : o'.mesh = m := by
      unfold boundsFor at hb
      cases u
      · simp only [Bool.false_eq_true, if_false] at hu hb
        cases hb
        exact hu
      · simp only [if_true] at hu hb
        rw [hb] at hu
        cases hu
        rfl
    rw [hm] at hw
    have hcount := C02_reload_of_export pl m (exportMesh pl m).bytes counts (by
      rcases hm : exportMesh pl m with ⟨bs, e⟩
      rw [hm] at he
      cases he
      rfl)
    unfold construct baseInit
    rcases hx : exportName o.filename name with _ | ⟨c, cs⟩
    · exact absurd hx named
    · simp only
      rw [← hx, hw.read, kind]
      simp only
      rw [hcount]
  · obtain ⟨fs', hx, hw⟩ := C19_serialisation_raises hd hb he hr hnd
    refine ⟨fs', _, some e, hx, .inr ⟨by simp, ?_⟩⟩
    rw [made hw, C144_not_loadable pl m counts (by rw [he]; simp)]

/-- **C144.** So it is after any history of edits of a mesh in good order. -/
theorem C144_after_history [Libm F64] {vs : Nat} {m m' : Mesh F64} (h : Orderly vs m)
    (history : History m m') (pl : Plat) :
    (InRange pl m' ∧ (exportMesh pl m').err = none ∧
      load pl m.kind (exportMesh pl m').bytes = .ok (m'.map fun x => unpackF (packF x))) ∨
    (¬ InRange pl m' ∧ (exportMesh pl m').err = some .structError ∧
      load (F := F64) pl m.kind (exportMesh pl m').bytes = .error .structError) := by
  obtain ⟨h', hf⟩ := C50_history_keeps_order h history
  obtain ⟨l, hl⟩ := h'.many
  by_cases hr : InRange pl m'
  · refine .inl ⟨hr, (exportMesh_err h'.wf hl).2 hr, C50_export_reloads h history ?_⟩
    have := (exportMesh_err h'.wf hl).2 hr
    rcases hm : exportMesh pl m' with ⟨bs, e⟩
    rw [hm] at this
    cases this
    rfl
  · have he := (C144_raises_iff pl m' h'.wf hl).2 hr
    refine .inr ⟨hr, he, ?_⟩
    rw [← hf.kind]
    exact C144_not_loadable pl m' h'.wf (by rw [he]; simp)

/-- Its only lod says that it has no material, and has one whose alpha mode does not fit. -/
def uncounted : Mesh F64 :=
  let m := tiny.map unpackF
  { m with geoms := m.geoms.map fun g => { g with lods := g.lods.map fun l =>
    { l with matnum := 0, materials := l.materials.map fun a => { a with alphamode := some (2 ^ 40) } } } }

/-- **C144.** Without the counts a file left by an exception may load, as another mesh. -/
theorem C144_needs_counts : ∃ m : Mesh F64, (exportMesh win m).err = some .structError ∧ m.mats ≠ [] ∧
    (load (F := F64) win m.kind (exportMesh win m).bytes).toOption.map (fun m => m.mats) = some [] :=
  ⟨uncounted, by decide +kernel, by decide +kernel, by decide +kernel⟩

/-- A mesh with counts that agree, an index that does not fit 16 bits, and the file of the box in the way. -/
example :
    let bad : Mesh F64 := { tinyD with index := .many [0, 65536, 2] }
    let r := exportObj win boxFS (objOf bad) (some "./box.staticmesh".toList) false
    MeshWF bad ∧ (exportMesh win bad).err = some .structError ∧
    boxFS.ensureDir "./box.staticmesh".toList = (boxFS, none) ∧
    boxFS.resolve "./box.staticmesh".toList = .ok [['w'], "box.staticmesh".toList] ∧
    boxFS.node [['w'], "box.staticmesh".toList] = some (.file evilBox) ∧
    kindOfName "./box.staticmesh".toList = bad.kind ∧ r.2.2 = some .structError ∧
    (exportMesh win bad).bytes.length = 103 := by
  refine ⟨?_, by decide +kernel, ?_, by decide +kernel, by decide +kernel, by decide +kernel,
    by decide +kernel, by decide +kernel⟩
  · exact { tinyD_wf with index := ⟨by decide, by decide, by decide⟩ }
  · unfold FS.ensureDir
    rw [if_pos (by decide +kernel)]

/-! ## C09: objects -/

/-- **C09.** An object made from a file that announces one index can never be exported: whatever the
name, the state of the file system and the `updateBounds` flag, the call raises. -/
theorem C09_never_saved {F : Type} [FCodec F] [FArith F] (pl : Plat) (fs fs' : FS)
    (filename name : Option Str) (fl : Flags) (o : Obj F) (made : construct pl fs filename fl = .ok o)
    (one : o.mesh.indexnum = 1) (u : Bool) : (exportObj pl fs' o name u).2.2 ≠ none := by
  have hi : ∃ i, o.mesh.index = .one i := by
    unfold construct at made
    split at made
    · cases made
    · split at made
      · cases made
      · split at made
        · cases made
        · rename_i hl
          cases made
          exact (C09_one_index_never_exported pl _ _ _ hl one).1
  obtain ⟨i, hi⟩ := hi
  have hx : ∀ m : Mesh F, m.index = .one i → (exportMesh pl m).err ≠ none := by
    intro m hm h
    unfold exportMesh at h
    simp only [Out.all, seq_err, hm] at h
    obtain ⟨-, -, -, -, -, -, -, -, -, -, -, h, -⟩ := h
    cases h
  have hb : (boundsFor o.mesh u).1.index = .one i := by
    unfold boundsFor
    split
    · obtain ⟨gs, h, -⟩ := update_bounded o.mesh
      rw [h]
      exact hi
    · exact hi
  unfold exportObj
  dsimp only
  rcases fs'.ensureDir (exportName o.filename name) with ⟨fs1, _ | e⟩
  · dsimp only
    rcases hbd : boundsFor o.mesh u with ⟨m, _ | e⟩
    · dsimp only
      rw [hbd] at hb
      unfold writeOut
      rcases fs1.openWrite (exportName o.filename name) with e | ⟨fs2, l⟩
      · simp
      · dsimp only
        have := hx m hb
        rcases hm : exportMesh pl m with ⟨bytes, _ | e⟩
        · rw [hm] at this; exact absurd rfl this
        · simp
    · simp
  · simp

/-- Such an object exists. -/
example : ∃ (fs : FS) (o : Obj F64),
    construct win fs (some "./y.staticmesh".toList) ⟨false, false, true⟩ = .ok o ∧ o.mesh.indexnum = 1 :=
  ⟨fsWith [['w'], "y.staticmesh".toList]
      (fileBytes win (tinyOf staticKind 2 [0, 0, 0, 0, 0, 0] 1 (.one 0))).bytes,
    ⟨"./y.staticmesh".toList, true, (tinyOf staticKind 2 [0, 0, 0, 0, 0, 0] 1 (.one 0)).map unpackF⟩,
    by decide +kernel, by decide +kernel⟩

end Bf2
