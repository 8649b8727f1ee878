import Verif.OldSaveLemmas
import Verif.Props.Object

/-!
# The loader and the writer of `/repo/deprecated/modmesh.py`: C83 - C85

`Mesh.old` (`OldSpec.lean`) is a mesh as the deprecated module holds it: the same fields, but the
attribute table signed, the index block always a sequence, and of the nodes of a lod only the last.
-/

namespace Bf2

variable {F : Type} [FCodec F]

/-! ## C83: the deprecated loader against the loader of the package -/

/-- A file that the package loads as `m` is loaded by the deprecated module as `m.old`, also when
other bytes follow, provided the first lod has a material. -/
theorem C83_loads_the_same (pl : Plat) (k : Kind) (file suffix : Bytes) (m : Mesh F)
    (hm : load pl k file = .ok m) (hf : ¬ FirstEmpty m.lods) :
    oldLoad pl k (file ++ suffix) = .ok m.old := by
  obtain ⟨r, hr, rfl⟩ := load_ok_map.1 hm
  obtain ⟨hw, hk, hb⟩ := load_raw_iff.1 hr
  have h1 := (loadBody_inv pl k).complete suffix ⟨hw, hk⟩ hb
  have h2 : loadBody (F := F) pl k (file ++ suffix) = .ok (r.map FCodec.unpack, suffix) := by
    rw [loadBody_map, P.map_run, h1]
  unfold oldLoad
  rw [oldLoadBody_of h2, if_neg hf]

/-- When the first lod has no material the deprecated loader raises on a local variable that has no
value yet. -/
theorem C83_first_lod_without_material (pl : Plat) (k : Kind) (file suffix : Bytes) (m : Mesh F)
    (hm : load pl k file = .ok m) (hf : FirstEmpty m.lods) :
    oldLoad (F := F) pl k (file ++ suffix) = .error .unboundLocalError := by
  obtain ⟨r, hr, rfl⟩ := load_ok_map.1 hm
  obtain ⟨hw, hk, hb⟩ := load_raw_iff.1 hr
  have h1 := (loadBody_inv pl k).complete suffix ⟨hw, hk⟩ hb
  have h2 : loadBody (F := F) pl k (file ++ suffix) = .ok (r.map FCodec.unpack, suffix) := by
    rw [loadBody_map, P.map_run, h1]
  unfold oldLoad
  rw [oldLoadBody_of h2, if_pos hf]

/-- Conversely: what the deprecated module loads is, cut at some length, a file of the package,
except when the vertex block is a single float. -/
theorem C83_loads_only (pl : Plat) (k : Kind) (file : Bytes) (o : OldMesh F)
    (ho : oldLoad pl k file = .ok o) (h1 : o.vertices.length ≠ 1) :
    ∃ part suffix m, file = part ++ suffix ∧ load pl k part = .ok m ∧ ¬ FirstEmpty m.lods ∧
      o = m.old := by
  unfold oldLoad at ho
  rcases hb : oldLoadBody (F := F) pl k file with e | ⟨o', r⟩
  · rw [hb] at ho; cases ho
  · rw [hb] at ho
    obtain rfl : o' = o := by injection ho
    rcases oldLoadBody_ok hb with h | ⟨m, hm, hf, rfl⟩
    · exact absurd h h1
    · rw [loadBody_map, P.map_ok] at hm
      obtain ⟨w, hw, rfl⟩ := hm
      obtain ⟨⟨h2, h3⟩, bs, h4, rfl⟩ := (loadBody_inv pl k).sound hw
      exact ⟨bs, r, _, rfl, load_ok_map.2 ⟨w, load_raw_iff.2 ⟨h2, h3, h4⟩, rfl⟩, hf, rfl⟩

/-- The sample file, with two bytes behind it: 12 triangles, and the mesh the package has. -/
example : (load (F := F64) win staticKind evilBox).toOption.map (fun m => decide (FirstEmpty m.lods)) =
      some false ∧
    (oldLoad (F := F64) win staticKind (evilBox ++ [1, 2])).toOption.map
      (fun o => (o.indexnum, o.index.length, o.geoms.map fun g => g.lods.map (·.polyInum))) =
      some (36, 36, [[36]]) := by
  decide +kernel

/-- A lod with no material in front of one with a material. -/
def emptyFirst : Mesh W :=
  { tiny with geoms := tiny.geoms.map fun g =>
      { g with lodnum := 2, lods := g.lods.map (fun l => { l with matnum := 0, materials := [] }) ++ g.lods } }

example : FirstEmpty emptyFirst.lods ∧
    (load (F := F64) win staticKind (exportMesh win emptyFirst).bytes).isOk = true ∧
    (oldLoad (F := F64) win staticKind (exportMesh win emptyFirst).bytes).isOk = false := by
  decide +kernel

/-- The other order loads: the lod without material gets the count of the lod before it. -/
example : (oldLoad (F := F64) win staticKind (exportMesh win
      { emptyFirst with geoms := emptyFirst.geoms.map fun g => { g with lods := g.lods.reverse } }).bytes
      ).toOption.map (fun o => o.geoms.map fun g => g.lods.map fun l => (l.matnum, l.polyInum)) =
    some [[(1, 3), (0, 3)]] := by
  decide +kernel

/-- The hypothesis of `C83_loads_only`: a vertex block of one float is loaded by the deprecated
module only. -/
example : (oldLoad (F := F64) win staticKind
      (exportMesh win { tinyOf staticKind 1 [0x3f800000] 3 (.many [0, 0, 0]) with vertstride := 4 }).bytes
      ).toOption.map (·.vertices.length) = some 1 ∧
    (load (F := F64) win staticKind
      (exportMesh win { tinyOf staticKind 1 [0x3f800000] 3 (.many [0, 0, 0]) with vertstride := 4 }).bytes
      ).isOk = false := by
  decide +kernel

/-! ## C84: what the deprecated module saves of an unmodified mesh -/

/-- Saving an unmodified mesh never fails.  The saved file, loaded again, has at each float the word
of the original file (with NaNs quieted), except that every node of a lod is the last one. -/
theorem C84_save_unmodified (pl : Plat) (k : Kind) (file : Bytes) (m : Mesh F64) (r : Mesh W)
    (hm : load pl k file = .ok m) (hr : load pl k file = .ok r) :
    ∃ out, oldSave pl m.old = ⟨out, none⟩ ∧ load pl k out = .ok (r.lastNodes.map quieted) := by
  have hwm := (C06_loaded_wf pl k file m hm)
  have hir := C07_integers_in_range pl k file m hm
  obtain ⟨r', hr', rfl⟩ := load_ok_map.1 hm
  rw [hr] at hr'
  obtain rfl : r = r' := by injection hr'
  obtain ⟨hw, hk, hf⟩ := load_raw_iff.1 hr
  have hq : ((r.map unpackF).lastNodes).map packF = (r.lastNodes).map quieted := by
    rw [Mesh.lastNodes_map, Mesh.map_map]
    exact congrArg (fun f => r.lastNodes.map f) (funext packF_unpackF)
  have he : oldSave pl (r.map (FCodec.unpack (F := F64))).old =
      fileBytes pl (r.lastNodes.map quieted) := by
    rw [oldSave_old hwm.1 hir, exportMesh_map, ← hq, ← fileBytes_elems]
    rfl
  have hn : (fileBytes pl (r.lastNodes.map quieted)).err = none := by
    rw [fileBytes_err (hw.lastNodes.map _)]
    exact (((fileBytes_err hw).1 (by rw [hf])).lastNodes).map _
  have hx : fileBytes pl (r.lastNodes.map quieted) =
      ⟨(fileBytes pl (r.lastNodes.map quieted)).bytes, none⟩ := Out.ext' rfl hn
  exact ⟨_, he.trans hx, load_raw_iff.2 ⟨hw.lastNodes.map _, hk, hx⟩⟩

/-- Loading a file without signalling NaNs and saving it reproduces the file exactly when no lod has
two different nodes. -/
theorem C84_identical_iff (pl : Plat) (k : Kind) (file : Bytes) (m : Mesh F64)
    (hm : load pl k file = .ok m) (hs : NoSignalling pl k file) :
    oldSave pl m.old = ⟨file, none⟩ ↔ ∀ l ∈ m.lods, SameNodes l := by
  obtain ⟨r, hr, rfl⟩ := load_ok_map.1 hm
  obtain ⟨out, h1, h2⟩ := C84_save_unmodified pl k file _ r hm hr
  obtain ⟨hw, hk, hf⟩ := load_raw_iff.1 hr
  have hq : r.map quieted = r := by
    conv_rhs => rw [← Mesh.map_id r]
    exact Mesh.map_congr fun w hw => quieted_of_not (hs r hr w hw)
  rw [← Mesh.lastNodes_map, hq] at h2
  have h3 : out = file ↔ r.lastNodes = r := by
    constructor
    · rintro rfl
      rw [hr] at h2
      injection h2 with h2
      exact h2.symm
    · intro h
      obtain ⟨-, -, hf'⟩ := load_raw_iff.1 h2
      rw [h, hf] at hf'
      injection hf' with hf'
      exact hf'.symm
  have h4 : (r.map unpackF).lastNodes = r.map unpackF ↔ r.lastNodes = r := by
    constructor
    · intro h
      have := congrArg (Mesh.map packF) h
      rw [Mesh.lastNodes_map, Mesh.map_map, Mesh.map_map,
        show packF ∘ unpackF = quieted from funext packF_unpackF, ← Mesh.lastNodes_map, hq] at this
      exact this
    · intro h
      rw [Mesh.lastNodes_map, h]
  rw [h1]
  refine Iff.trans ?_ (h3.trans (h4.symm.trans Mesh.lastNodes_eq_iff))
  simp

/-- The sample file is reproduced. -/
example : (oldLoad (F := F64) win staticKind evilBox).toOption.map (oldSave win) =
    some ⟨evilBox, none⟩ := by
  decide +kernel

/-- `tiny` with a second, different node in its lod. -/
def twoNodes : Mesh W :=
  { tiny with geoms := tiny.geoms.map fun g => { g with lods := g.lods.map fun l =>
      { l with nodenum := 2, nodes := ⟨⟨0, 0, 0, 0⟩, ⟨0, 0, 0, 0⟩, ⟨0, 0, 0, 0⟩, ⟨0, 0, 0, 0⟩⟩ :: l.nodes } } }

/-- It comes back from the package, and changed from the deprecated module. -/
example : (load (F := F64) win staticKind (exportMesh win twoNodes).bytes).toOption.map (exportMesh win) =
      some (exportMesh win twoNodes) ∧
    (oldLoad (F := F64) win staticKind (exportMesh win twoNodes).bytes).toOption.map
      (fun o => (decide (oldSave win o = exportMesh win twoNodes), (oldSave win o).err,
        (oldSave win o).bytes.length == (exportMesh win twoNodes).bytes.length)) =
      some (false, none, true) := by
  decide +kernel

/-- A mesh with one index, which the package loads but cannot export (C09), is saved. -/
example : (oldLoad (F := F64) win staticKind (fileBytes win
      (tinyOf staticKind 3 [0, 0, 0, 0, 0, 0, 0, 0, 0] 1 (.one 2))).bytes).toOption.map (oldSave win) =
    some (fileBytes win (tinyOf staticKind 3 [0, 0, 0, 0, 0, 0, 0, 0, 0] 1 (.one 2))) := by
  decide +kernel

/-! ## C85: saving to a path -/

/-- Saving to a bare file name fails and changes nothing. -/
theorem C85_bare_name (pl : Plat) (fs : FS) (m : OldMesh F) (path : Str) (h : '/' ∉ path) :
    oldSavePath pl fs m path = (fs, some .fileNotFoundError) := by
  have hd : dirname path = [] := by
    unfold dirname
    rw [pathSplit_bare h]
  have he : fs.ensureDir path = (fs, some .fileNotFoundError) := by
    unfold FS.ensureDir
    rw [hd]
    rfl
  unfold oldSavePath
  rw [he]

/-- A save that does not fail leaves the serialised mesh in the file named, which the deprecated
loader then reads; one that fails in the middle leaves the part written before.  No other file
changes. -/
theorem C85_written {pl : Plat} {fs fs1 : FS} {m : OldMesh F} {path : Str}
    (hd : fs.ensureDir path = (fs1, none)) {loc : Loc} (hr : fs1.resolve path = .ok loc)
    (hnd : fs1.node loc ≠ some .dir) :
    ∃ fs', oldSavePath pl fs m path = (fs', (oldSave pl m).err) ∧
      Written fs fs' path loc (oldSave pl m).bytes ∧
      oldLoadPath (F := F) pl fs' path = oldLoad pl (oldKind path) (oldSave pl m).bytes := by
  have hg := Grown.ensureDir fs path
  rw [hd] at hg
  have how : fs1.openWrite path = .ok (fs1.set loc (.file []), loc) := by
    unfold FS.openWrite
    rw [hr]
    simp only
  have hwr := (openWrite_set how (oldSave pl m).bytes).grown hg
  refine ⟨(fs1.set loc (.file [])).set loc (.file (oldSave pl m).bytes), ?_, hwr, ?_⟩
  · unfold oldSavePath
    rw [hd]
    simp only
    rw [how]
  · unfold oldLoadPath FS.read
    rw [hwr.names]
    simp only
    rw [hwr.content]

/-- Both outcomes: into a directory that exists, `tiny` and `tiny` with an index that does not fit 16
bits. -/
example : boxFS.ensureDir "./a.staticmesh".toList = (boxFS, none) ∧
    (boxFS.resolve "./a.staticmesh".toList).toOption.map (fun l => (boxFS.node l).isSome) =
      some false ∧
    (oldSave win ((tiny.map unpackF).old : OldMesh F64)).err = none ∧
    (oldSave win { ((tiny.map unpackF).old : OldMesh F64) with index := [0, 1, 65536] }).err =
      some .structError ∧
    (oldSave win { ((tiny.map unpackF).old : OldMesh F64) with index := [0, 1, 65536] }).bytes.length
      = 101 := by
  refine ⟨?_, by decide +kernel⟩
  unfold FS.ensureDir
  rw [if_pos (by decide +kernel)]

end Bf2
