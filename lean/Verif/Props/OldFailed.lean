import Verif.OldFailedLemmas
import Verif.Props.OldHistory

/-!
# C152: a file left by a save of `/repo/deprecated/modmesh.py` that raised cannot be loaded

C103 says when it raises.  Here: what it raises, and that neither loader makes a mesh of what is left.
-/

namespace Bf2

section
variable {F : Type} [FCodec F]

/-- **C152.** Saving a mesh object whose counts agree with its lists raises nothing but `struct.error`. -/
theorem C152_errors (pl : Plat) {o : OldMesh F} (counts : OldWF o) {e : Err}
    (h : (oldSave pl o).err = some e) : e = .structError := by
  rcases PackOnly.oldMesh counts e h with h | ⟨-, h⟩
  · exact h
  · cases h

/-- **C152.** It does exactly if some number does not fit its field. -/
theorem C152_raises_iff (pl : Plat) {o : OldMesh F} (counts : OldWF o) :
    (oldSave pl o).err = some .structError ↔ ¬ OldInRange pl o := by
  rw [← counts.save_err]
  constructor
  · intro h
    rw [h]
    simp
  · intro h
    rcases he : (oldSave pl o).err with _ | e
    · exact absurd he h
    · rw [C152_errors pl counts he]

/-- **C152.** What is left in the file makes the loader of the package raise `struct.error`, and that of the
deprecated module raise. -/
theorem C152_not_loadable (pl : Plat) {o : OldMesh F} (counts : OldWF o) (h : (oldSave pl o).err ≠ none) :
    load (F := F) pl o.kind (oldSave pl o).bytes = .error .structError ∧
    ∃ e, oldLoad (F := F) pl o.kind (oldSave pl o).bytes = .error e := by
  obtain ⟨h1, h2⟩ := counts.failed h
  refine ⟨h1, ?_⟩
  rcases ho : oldLoad (F := F) pl o.kind (oldSave pl o).bytes with e | o'
  · exact ⟨e, rfl⟩
  · exact absurd ho (h2 o')

end

/-- **C152.** A `save` that gets as far as opening its file, of a mesh whose first lod has a material: either
it raises nothing, and the deprecated module loads the file, as the mesh with its floats rounded, or it raises
`struct.error`, and the module cannot load the file. -/
theorem C152_loads_iff {pl : Plat} {fs fs1 : FS} {o : OldMesh F64} {path : Str}
    (hd : fs.ensureDir path = (fs1, none)) {loc : Loc} (hr : fs1.resolve path = .ok loc)
    (hnd : fs1.node loc ≠ some .dir) (counts : OldWF o) (kind : oldKind path = o.kind)
    (first : ∀ l, (o.geoms.flatMap OldGeom.lods).head? = some l → l.materials ≠ []) :
    ∃ fs' r, oldSavePath pl fs o path = (fs', r) ∧
      (r = none ∧ (∃ m, Shows o m ∧ oldLoadPath pl fs' path = .ok (m.map stored).old) ∨
        r = some .structError ∧ ∃ e, oldLoadPath (F := F64) pl fs' path = .error e) := by
  obtain ⟨fs', h1, h2, h3⟩ := C85_written (pl := pl) (m := o) hd hr hnd
  refine ⟨fs', _, h1, ?_⟩
  rw [h3, kind]
  by_cases hi : OldInRange pl o
  · have h0 := counts.save_err.2 hi
    obtain ⟨out, hs, hl⟩ := counts.save hi
    refine .inl ⟨h0, o.shown, counts.shows hi.vattrs, ?_⟩
    rw [hs]
    unfold load at hl
    rcases hb : loadBody (F := F64) pl o.kind out with e | ⟨m, r⟩
    · rw [hb] at hl
      cases hl
    · rw [hb] at hl
      obtain rfl : m = o.shown.map stored := by
        rcases r with _ | ⟨x, r⟩ <;> simp at hl
        exact hl
      unfold oldLoad
      rw [oldLoadBody_of hb, if_neg]
      rintro ⟨l, hl1, hl2⟩
      have e : (o.shown.map stored).lods =
          ((o.geoms.flatMap OldGeom.lods).map OldLod.shown).map (Lod.map stored) := by
        unfold Mesh.lods Mesh.map OldMesh.shown
        simp only [List.flatMap_map, List.map_flatMap]
        rfl
      rw [e, List.head?_map, List.head?_map] at hl1
      rcases hh : (o.geoms.flatMap OldGeom.lods).head? with _ | x
      · rw [hh] at hl1
        cases hl1
      · rw [hh] at hl1
        cases hl1
        refine first x hh ?_
        exact List.map_eq_nil_iff.1 hl2
  · have h0 := (C152_raises_iff pl counts).2 hi
    exact .inr ⟨h0, (C152_not_loadable pl counts (by rw [h0]; simp)).2⟩

/-- **C152.** So it is after any history of edits of a mesh in good order. -/
theorem C152_after_history [Libm F64] {vs : Nat} {m m' : OldMesh F64} (order : OldOrderly vs m)
    (history : OldHistory vs m m') (pl : Plat) :
    (OldInRange pl m' ∧ ∃ out r, oldSave pl m' = ⟨out, none⟩ ∧ Shows m' r ∧
      load pl m.kind out = .ok (r.map stored)) ∨
    (¬ OldInRange pl m' ∧ (oldSave pl m').err = some .structError ∧
      load (F := F64) pl m.kind (oldSave pl m').bytes = .error .structError ∧
      ∃ e, oldLoad (F := F64) pl m.kind (oldSave pl m').bytes = .error e) := by
  obtain ⟨h1, h2⟩ := order.history history
  by_cases hi : OldInRange pl m'
  · obtain ⟨out, r, ha, hb, -, -, hc⟩ := (C104_save_after pl order history).2 hi
    exact .inl ⟨hi, out, r, ha, hb, hc⟩
  · have h0 := (C152_raises_iff pl h1.wf).2 hi
    rw [← h2.kind]
    exact .inr ⟨hi, h0, C152_not_loadable pl h1.wf (by rw [h0]; simp)⟩

/-- **C152.** Meshes with too many vertices: `merge` succeeds, the result cannot be saved, and the file that
was there is replaced by one that cannot be loaded. -/
theorem C152_merge_too_large {vs : Nat} {m other : OldMesh F64} (order : OldOrderly vs m)
    (order' : OldOrderly vs other) (attrs : m.vattrs = other.vattrs)
    (static : m.kind.isStatic = true ∨ other.kind.isStatic = true) (counts : OldSameCounts m other)
    (small : m.vertices.length + other.vertices.length ≤ 2 ^ 53) {i : Nat} {a b : Mat F64}
    (ha : m.mats[i]? = some a) (hb : other.mats[i]? = some b) {v : Int} (hv : v ∈ other.idata b)
    (large : 65535 < v + a.vnum) (pl : Plat) :
    ∃ m', oldMerge m other = (m', none) ∧ (oldSave pl m').err = some .structError ∧
      load (F := F64) pl m.kind (oldSave pl m').bytes = .error .structError ∧
      ∃ e, oldLoad (F := F64) pl m.kind (oldSave pl m').bytes = .error e := by
  obtain ⟨h1, h2, h3⟩ := order.merge order' attrs static counts small
  obtain ⟨o, ho⟩ := order.pos
  have ids : ∀ x : OldMesh F64, OldOrderly vs x → x.ids.length * vs = x.vertices.length := by
    intro x hx
    obtain ⟨n, hn, hl⟩ := hx.packed.num
    rw [hx.tiled.ids hn, List.length_range, hl]
  obtain ⟨m', hm, -, -, -, -, -, hmat⟩ := C91_merge_concatenates (p := o)
    ⟨order.packed, order'.packed, attrs, static, counts, order.tiled.exist, order'.tiled.exist,
      order.tiledIndex.exist, order'.tiledIndex.exist⟩ ho order.bounds
      (by rw [Nat.add_mul, ids m order, ids other order']; exact small)
  rw [hm] at h2 h3
  obtain ⟨a', ha', hmm, -⟩ := hmat i a b ha hb
  have hmem : v + a.vnum ∈ m'.index := by
    have : v + a.vnum ∈ m'.idata a' := by
      rw [hmm.index]
      exact List.mem_append_right _ (List.mem_map_of_mem hv)
    exact List.mem_of_mem_drop (List.mem_of_mem_take this)
  have hn : ¬ OldInRange pl m' := fun hi => by
    have := (hi.index _ hmem).2
    omega
  have h0 := (C152_raises_iff pl h2.wf).2 hn
  rw [← h3.kind]
  exact ⟨m', hm, h0, C152_not_loadable pl h2.wf (by rw [h0]; simp)⟩

/-- Its only lod says that it has one material, and has a second whose alpha mode does not fit. -/
def oldUncounted : OldMesh F64 :=
  { staticBox with geoms := staticBox.geoms.map fun g => { g with lods := g.lods.map fun l =>
    { l with materials := l.materials.flatMap fun a => [a, { a with alphamode := some (2 ^ 40) }] } } }

/-- **C152.** Without the counts a file left by an exception may load, as another mesh. -/
theorem C152_needs_counts : ∃ o : OldMesh F64, (oldSave win o).err = some .structError ∧ o.mats.length = 2 ∧
    (oldLoad (F := F64) win o.kind (oldSave win o).bytes).toOption.map (fun o => o.mats.length) = some 1 :=
  ⟨oldUncounted, by decide +kernel, by decide +kernel, by decide +kernel⟩

/-! ## Cases -/

/-- The box with its first index replaced. -/
def indexBox (v : Int) : OldMesh F64 := { staticBox with index := v :: boxIndex.tail }

theorem indexBox_orderly (v : Int) : OldOrderly 12 (indexBox v) where
  wf := { staticBox_orderly.wf with index := rfl }
  packed := ⟨staticBox_orderly.packed.table, staticBox_orderly.packed.count⟩
  tiled := ⟨staticBox_orderly.tiled.nonneg, staticBox_orderly.tiled.start, staticBox_orderly.tiled.total⟩
  tiledIndex := ⟨staticBox_orderly.tiledIndex.nonneg, staticBox_orderly.tiledIndex.start,
    staticBox_orderly.tiledIndex.total⟩
  bounds := staticBox_orderly.bounds
  pos := staticBox_orderly.pos
  normal := staticBox_orderly.normal
  tangent := staticBox_orderly.tangent
  small := staticBox_orderly.small

/-- A box with an index that does not fit; its save into the directory of a good box. -/
example :
    let r := oldSavePath win boxFS (indexBox 65536) "./box.staticmesh".toList
    OldWF (indexBox 65536) ∧ ¬ OldInRange win (indexBox 65536) ∧
    boxFS.ensureDir "./box.staticmesh".toList = (boxFS, none) ∧
    boxFS.resolve "./box.staticmesh".toList = .ok [['w'], "box.staticmesh".toList] ∧
    boxFS.node [['w'], "box.staticmesh".toList] = some (.file evilBox) ∧
    oldKind "./box.staticmesh".toList = (indexBox 65536).kind ∧
    (∀ l ∈ ((indexBox 65536).geoms.flatMap OldGeom.lods).head?, l.materials ≠ []) ∧
    r.2 = some .structError ∧ (oldSave win (indexBox 65536)).bytes.length = 1241 := by
  refine ⟨(indexBox_orderly _).wf, fun h => ?_, ?_, by decide +kernel, by decide +kernel, by decide +kernel,
    by decide +kernel, by decide +kernel, by decide +kernel⟩
  · exact absurd (h.index 65536 (by simp [indexBox])) (by unfold IsShort; decide)
  · unfold FS.ensureDir
    rw [if_pos (by decide +kernel)]

/-- Merging boxes: the first index of the second is shifted by 24. -/
example : OldSameCounts staticBox (indexBox 65530) ∧ staticBox.vattrs = (indexBox 65530).vattrs ∧
    staticBox.kind.isStatic = true ∧
    staticBox.vertices.length + (indexBox 65530).vertices.length ≤ 2 ^ 53 ∧
    staticBox.mats.map (fun a => a.vnum) = [24] ∧
    (indexBox 65530).mats.map (fun b => decide (65530 ∈ (indexBox 65530).idata b)) = [true] ∧
    (oldMerge staticBox (indexBox 65530)).1.index[36]? = some 65554 := by
  refine ⟨.cons (.cons rfl .nil) .nil, rfl, rfl, by decide +kernel, by decide +kernel, by decide +kernel,
    by decide +kernel⟩

end Bf2
