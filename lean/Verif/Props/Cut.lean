import Verif.CutLemmas
import Verif.Props.ColFailed
import Verif.Props.FailedExport
import Verif.Props.LoadFail
import Verif.Props.OldFailed

/-!
# C162: a save that stops anywhere leaves a file that does not load

`export` (`visiblemesh.py:202-215`) and the two deprecated `save` (`modmesh.py:592-597`,
`modcolmesh.py:422-427`) open their file with `'wb'`, which empties it, and write from the front to the end.
When the process is stopped, or a write fails because the disk is full, the file holds the first part of what
would have been written.  C144, C149 and C152 are about a save that raised by itself; here it may stop after
any byte, also within a number.

What a part of a file does is said for every file: bytes at the end make no difference except to `struct.error`.
-/

namespace Bf2

section
variable {F : Type} [FCodec F]

/-! ## The first part of a file -/

/-- **C162.** A file that makes the loader raise `struct.error` does so when it is cut anywhere. -/
theorem C162_part (pl : Plat) (k : Kind) (part tail : Bytes)
    (h : load (F := F) pl k (part ++ tail) = .error .structError) :
    load (F := F) pl k part = .error .structError := by
  rcases hp : load (F := F) pl k part with e | m
  · by_cases he : e = .structError
    · rw [he]
    · rw [C141_append pl k part tail hp he] at h
      exact h
  · rcases tail with _ | ⟨b, bs⟩
    · rw [List.append_nil, hp] at h
      cases h
    · rw [C04_trailing_bytes_rejected pl k part (b :: bs) m hp (by simp)] at h
      cases h

/-- **C162.** The loader of the deprecated module: what it returns or raises on a file it returns or raises on
every longer file, except for `struct.error`. -/
theorem C162_old_append (pl : Plat) (k : Kind) (file more : Bytes)
    (h : oldLoad (F := F) pl k file ≠ .error .structError) :
    oldLoad (F := F) pl k (file ++ more) = oldLoad pl k file := by
  rcases hf : oldLoad (F := F) pl k file with e | o
  · exact oldLoad_stays_err hf (fun he => h (by rw [hf, he])) more
  · exact oldLoad_stays_ok hf more

/-- **C162.** The same for the loader of collision meshes. -/
theorem C162_col_append (pl : Plat) (file more : Bytes)
    (h : loadCol (F := F) pl file ≠ .error .structError) :
    loadCol (F := F) pl (file ++ more) = loadCol pl file := by
  rcases hf : loadCol (F := F) pl file with e | o
  · exact loadCol_stays_err hf (fun he => h (by rw [hf, he])) more
  · exact loadCol_stays_ok hf more

/-- **C162.** A file of the package that is cut does not load with the deprecated module either: `struct.error`,
or `UnboundLocalError` if its first lod has no material. -/
theorem C162_old_part (pl : Plat) (k : Kind) (part tail : Bytes) (m : Mesh F)
    (hm : load pl k (part ++ tail) = .ok m) (ht : tail ≠ []) :
    oldLoad (F := F) pl k part = .error .structError ∨
    oldLoad (F := F) pl k part = .error .unboundLocalError ∧ FirstEmpty m.lods := by
  have body := oldLoadBody_of (load_ok_iff.1 hm)
  rcases hp : oldLoadBody (F := F) pl k part with e | ⟨o, r⟩
  · have hl : oldLoad (F := F) pl k part = .error e := by
      unfold oldLoad
      rw [hp]
    rw [hl]
    by_cases he : e = .structError
    · rw [he]
      exact .inl rfl
    · rw [(Stays.oldLoadBody pl k).err _ _ hp he] at body
      split at body
      · rename_i hfe
        cases body
        exact .inr ⟨rfl, hfe⟩
      · cases body
  · rw [(Stays.oldLoadBody pl k).ok _ _ _ hp] at body
    split at body
    · cases body
    · simp only [Except.ok.injEq, Prod.mk.injEq, List.append_eq_nil_iff] at body
      exact absurd body.2.2 ht

end

/-! ## A save that stops -/

/-- **C162.** `export` of a mesh whose counts agree with its lists, stopped anywhere: loading the file raises
`struct.error`. -/
theorem C162_export (pl : Plat) (m : Mesh F64) (counts : MeshWF m) {part : Bytes}
    (h : Stopped (exportMesh pl m) part) : load (F := F64) pl m.kind part = .error .structError := by
  obtain ⟨tail, ht, h0⟩ := h.tail
  by_cases he : (exportMesh pl m).err = none
  · have hw : exportMesh pl m = ⟨part ++ tail, none⟩ := by rw [← ht, ← he]
    exact C05_truncation_rejected pl m.kind part tail _ (C02_reload_of_export pl m _ counts hw)
      fun hn => h0 hn he
  · refine C162_part pl m.kind part tail ?_
    rw [← ht]
    exact C144_not_loadable pl m counts he

/-- **C162.** Then no mesh can be constructed from the file, whatever else the disk holds. -/
theorem C162_export_construct (pl : Plat) (m : Mesh F64) (counts : MeshWF m) {part : Bytes}
    (h : Stopped (exportMesh pl m) part) {fs : FS} {name : Str} (named : name ≠ [])
    (kind : kindOfName name = m.kind) (file : fs.read name = .ok part) (fl : Flags) :
    construct (F := F64) pl fs (some name) fl = .error .structError := by
  unfold construct baseInit
  rcases name with _ | ⟨c, cs⟩
  · exact absurd rfl named
  · simp only
    rw [file, kind]
    simp only
    rw [C162_export pl m counts h]

/-- **C162.** The deprecated `save` of a mesh object whose counts agree with its lists, stopped anywhere: the
package raises `struct.error`, and the deprecated module raises too. -/
theorem C162_old_save (pl : Plat) {o : OldMesh F64} (counts : OldWF o) {part : Bytes}
    (h : Stopped (oldSave pl o) part) :
    load (F := F64) pl o.kind part = .error .structError ∧
    ∃ e, oldLoad (F := F64) pl o.kind part = .error e := by
  obtain ⟨tail, ht, h0⟩ := h.tail
  by_cases he : (oldSave pl o).err = none
  · obtain ⟨out, m, hs, -, -, -, hl⟩ := C103_save_reload pl counts ((C103_save_iff pl counts).1 he)
    have hb : out = part ++ tail := by rw [← ht, hs]
    rw [hb] at hl
    have hn : tail ≠ [] := fun hn => h0 hn he
    refine ⟨C05_truncation_rejected pl o.kind part tail _ hl hn, ?_⟩
    rcases C162_old_part pl o.kind part tail _ hl hn with h | ⟨h, -⟩
    · exact ⟨_, h⟩
    · exact ⟨_, h⟩
  · obtain ⟨h1, e, h2⟩ := C152_not_loadable pl counts he
    rw [ht] at h1 h2
    refine ⟨C162_part pl o.kind part tail h1, ?_⟩
    rcases hp : oldLoad (F := F64) pl o.kind part with e' | o'
    · exact ⟨e', rfl⟩
    · rw [C162_old_append pl o.kind part tail (by rw [hp]; exact fun hc => nomatch hc), hp] at h2
      cases h2

/-- A mesh object that can be saved, and whose first lod has a material, loads again. -/
theorem oldLoad_saved (pl : Plat) {o : OldMesh F64} (counts : OldWF o) (range : OldInRange pl o)
    (first : ∀ l, (o.geoms.flatMap OldGeom.lods).head? = some l → l.materials ≠ []) :
    ∃ o', oldLoad (F := F64) pl o.kind (oldSave pl o).bytes = .ok o' := by
  obtain ⟨out, hs, hl⟩ := counts.save range
  refine ⟨(o.shown.map stored).old, ?_⟩
  have same := C83_loads_the_same pl o.kind out [] _ hl
  rw [List.append_nil] at same
  rw [hs]
  refine same ?_
  rintro ⟨l, hl1, hl2⟩
  have e : (o.shown.map stored).lods =
      ((o.geoms.flatMap OldGeom.lods).map OldLod.shown).map (Lod.map stored) := by
    unfold Mesh.lods Mesh.map OldMesh.shown
    simp only [List.flatMap_map, List.map_flatMap]
    rfl
  rw [e, List.head?_map, List.head?_map] at hl1
  rcases hh : (o.geoms.flatMap OldGeom.lods).head? with _ | x
  · rw [hh] at hl1
    cases hl1
  · rw [hh] at hl1
    cases hl1
    exact first x hh (List.map_eq_nil_iff.1 hl2)

/-- **C162.** If the first lod has a material, the module raises `struct.error` on a save stopped before its
end. -/
theorem C162_old_save_struct (pl : Plat) {o : OldMesh F64} (counts : OldWF o) (range : OldInRange pl o)
    (first : ∀ l, (o.geoms.flatMap OldGeom.lods).head? = some l → l.materials ≠ []) {part : Bytes}
    (h : Stopped (oldSave pl o) part) : oldLoad (F := F64) pl o.kind part = .error .structError := by
  obtain ⟨tail, ht, -⟩ := h.tail
  obtain ⟨e, he⟩ := (C162_old_save pl counts h).2
  by_contra hc
  have ha := C162_old_append pl o.kind part tail hc
  obtain ⟨o', ho⟩ := oldLoad_saved pl counts range first
  rw [← ht, he, ho] at ha
  cases ha

/-- **C162.** The deprecated `save` of a collision mesh whose counts agree with its lists, stopped anywhere:
`struct.error`. -/
theorem C162_col_save (pl : Plat) (m : ColMesh F64 ColFace) (counts : ColWF m) {part : Bytes}
    (h : Stopped (writeCol pl m) part) : loadCol (F := F64) pl part = .error .structError := by
  obtain ⟨tail, ht, h0⟩ := h.tail
  by_cases he : (writeCol pl m).err = none
  · have hw : writeCol pl m = ⟨part ++ tail, none⟩ := by rw [← ht, ← he]
    obtain ⟨hf, hb⟩ := (C61_save_writes_layout pl m _).1 hw
    exact C60_truncation_rejected pl m.stored (counts.map _ _) hf part tail hb.symm fun hn => h0 hn he
  · have hn := C149_not_loadable pl m counts he
    rw [ht] at hn
    by_contra hc
    rw [C162_col_append pl part tail hc] at hn
    exact hc hn

/-- **C162.** Then no collision mesh can be made from the file, whatever else the disk holds. -/
theorem C162_col_construct (pl : Plat) (m : ColMesh F64 ColFace) (counts : ColWF m) {part : Bytes}
    (h : Stopped (writeCol pl m) part) {fs : FS} {name : Str} (named : name ≠ [])
    (file : fs.read name = .ok part) : constructCol (F := F64) pl fs (some name) = .error .structError := by
  rcases name with _ | ⟨c, cs⟩
  · exact absurd rfl named
  · unfold constructCol
    simp only [file]
    exact C162_col_save pl m counts h

/-! ## Cases -/

/-- A small mesh, cut within its second index; a box, saved by the deprecated module and cut after the vertex
attributes; a collision mesh cut within a float: each is what a stopped save may leave. -/
example : MeshWF tinyD ∧ Stopped (exportMesh win tinyD) ((exportMesh win tinyD).bytes.take 104) ∧
    OldWF staticBox ∧ OldInRange win staticBox ∧
    (∀ l ∈ (staticBox.geoms.flatMap OldGeom.lods).head?, l.materials ≠ []) ∧
    Stopped (oldSave win staticBox) ((oldSave win staticBox).bytes.take 80) ∧
    Stopped (writeCol win badCorner.obj) ((writeCol win badCorner.obj).bytes.take 30) ∧
    Stopped (writeCol win badCorner.obj) (writeCol win badCorner.obj).bytes := by
  refine ⟨tinyD_wf, .take (by decide +kernel), staticBox_orderly.wf, ?_, by decide +kernel,
    .take (by decide +kernel), .take (by decide +kernel), List.prefix_refl _, fun _ => by decide +kernel⟩
  exact staticBox_orderly.wf.save_err.1 (by decide +kernel)

/-- A save that is complete is not a stopped one, and its file loads. -/
example : ¬ Stopped (exportMesh win tinyD) (exportMesh win tinyD).bytes ∧
    (load (F := F64) win tinyD.kind (exportMesh win tinyD).bytes).isOk = true :=
  ⟨fun h => h.2 rfl (by decide +kernel), by decide +kernel⟩

/-- `UnboundLocalError` from the first part of a file: the first lod has no material, the last byte is cut. -/
example : FirstEmpty emptyFirst.lods ∧
    (load (F := F64) win staticKind (exportMesh win emptyFirst).bytes).isOk = true ∧
    oldLoad (F := F64) win staticKind (exportMesh win emptyFirst).bytes.dropLast =
      .error .unboundLocalError := by
  decide +kernel

end Bf2
