import Verif.OldWriteTestsLemmas
import Verif.Props.OldStages
import Verif.Props.Size
import Verif.ReadmeLemmas

/-!
# When the tests of `/repo/deprecated/tests_vismesh_write.py` pass: C159
-/

namespace Bf2

/-- A file of the deprecated module, neither skinned nor bundled, and a place for the copy. -/
structure TestedFile (pl : Plat) (fs : FS) (path clone : Str) (o : OldMesh F64) : Prop where
  loaded : oldLoadPath pl fs path = .ok o
  skinned : (oldKind path).isSkinned = false
  bundled : (oldKind path).isBundled = false
  not_one : o.vertices.length ≠ 1
  place : ∃ fs1 loc, fs.ensureDir clone = (fs1, none) ∧ fs1.resolve clone = .ok loc ∧ fs1.node loc ≠ some .dir

theorem PartTest.run_eq {pl : Plat} {fs : FS} {path clone : Str} {o : OldMesh F64}
    (h : TestedFile pl fs path clone o) (t : PartTest) :
    t.run pl fs path clone = t.asserts (o.upTo t.parts) o := by
  obtain ⟨fs1, loc, hd, hr, hn⟩ := h.place
  have hl := h.loaded
  unfold oldLoadPath at hl
  rcases hf : fs.read path with e | content
  · rw [hf] at hl
    cases hl
  rw [hf] at hl
  simp only at hl
  obtain ⟨fs', b, h1, h2, h3⟩ := C133_loaded (n := t.parts) hl hd hr hn (by cases t <;> decide)
    (by cases t <;> decide) h.not_one
  have h4 := h3 ⟨false, false, false, false⟩ h.skinned.symm h.bundled.symm []
  rw [List.append_nil] at h4
  have h5 : fs'.read clone = .ok b := by
    unfold FS.read
    rw [h2.names]
    simp only
    rw [h2.content]
  unfold PartTest.run
  rw [h.loaded]
  simp only
  rw [h1]
  simp only
  rw [h5]
  simp only
  rw [h4]

section
variable {pl : Plat} {fs : FS} {path clone : Str} {o : OldMesh F64}

/-- **C159.** The test of the header never raises.  It compares three numbers with `is`, and so passes
exactly if these are from -5 to 256, though the numbers are always written and read back as they were. -/
theorem C159_header (h : TestedFile pl fs path clone o) :
    (∃ b, PartTest.header.run pl fs path clone = .ok b) ∧
    (PartTest.header.run pl fs path clone = .ok true ↔
      ∀ n ∈ [o.head.u3, o.head.u4, o.head.u5], -5 ≤ n ∧ n ≤ 256) := by
  rw [PartTest.run_eq h]
  have e : PartTest.asserts (o.upTo 1) o .header = .ok (sameObject o.head.u3 o.head.u3 &&
      (sameObject o.head.u4 o.head.u4 && sameObject o.head.u5 o.head.u5)) := by
    simp only [PartTest.asserts, assertHeader, OldMesh.upTo, le_refl, if_true, thenAssert, decide_true]
    cases sameObject o.head.u3 o.head.u3 <;> cases sameObject o.head.u4 o.head.u4 <;> rfl
  rw [show PartTest.header.parts = 1 from rfl, e]
  refine ⟨⟨_, rfl⟩, ?_⟩
  simp [sameObject]

/-- **C159.** The tests of the geom table pass if there are as many geoms as they look at (one, two), and raise
`IndexError` otherwise. -/
theorem C159_geom_table (h : TestedFile pl fs path clone o) :
    PartTest.geomTable.run pl fs path clone =
      (if 1 ≤ o.geoms.length then .ok true else .error .indexError) ∧
    PartTest.geomTableDest.run pl fs path clone =
      (if 2 ≤ o.geoms.length then .ok true else .error .indexError) := by
  rw [PartTest.run_eq h, PartTest.run_eq h]
  simp only [PartTest.parts, PartTest.asserts, assertGeomTable, assertGeomTableDest, assertLodnum,
    OldMesh.upTo, le_refl, if_true, List.length_map, List.getElem?_map, thenAssert]
  rcases o.geoms with _ | ⟨g, _ | ⟨g', gs⟩⟩ <;> simp

/-- **C159.** The test of the nodes raises `IndexError` if there is no first lod.  Otherwise it passes exactly if
there is no NaN in the box and the nodes of that lod. -/
theorem C159_nodes (h : TestedFile pl fs path clone o) :
    (partLod o.geoms 0 0 = .error .indexError ∧
      PartTest.nodes.run pl fs path clone = .error .indexError) ∨
    ∃ g gs l ls b, o.geoms = g :: gs ∧ g.lods = l :: ls ∧ PartTest.nodes.run pl fs path clone = .ok b ∧
      (b = true ↔ (∀ x ∈ l.min.floats ++ l.max.floats, x.isNaN = false) ∧
        ∀ n ∈ l.nodes, ∀ x ∈ n.floats, x.isNaN = false) := by
  rw [PartTest.run_eq h]
  simp only [PartTest.parts, PartTest.asserts, assertNodes, OldMesh.upTo, le_refl, if_true,
    Nat.reduceLeDiff, if_false]
  rcases hg : o.geoms with _ | ⟨g, gs⟩
  · left
    simp [partLod]
  rcases hl : g.lods with _ | ⟨l, ls⟩
  · left
    simp [partLod, OldGeom.bare, hl]
  · right
    refine ⟨g, gs, l, ls, vec3Eq l.min l.min && (vec3Eq l.max l.max && optMatEq l.nodes l.nodes), rfl, hl, ?_, ?_⟩
    · simp only [partLod, List.map_cons, List.getElem?_cons_zero, OldGeom.bare, hl, OldLod.bare, thenAssert,
        decide_true, if_true]
      cases vec3Eq l.min l.min <;> cases vec3Eq l.max l.max <;> rfl
    · simp only [Bool.and_eq_true, vec3Eq_self, optMatEq_self, List.mem_append, or_imp, forall_and, and_assoc]

/-- **C159.** All other tests of single parts pass. -/
theorem C159_others (h : TestedFile pl fs path clone o) {t : PartTest}
    (other : t ∉ [PartTest.header, .geomTable, .geomTableDest, .nodes]) :
    t.run pl fs path clone = .ok true := by
  rw [PartTest.run_eq h]
  cases t
  case header | geomTable | geomTableDest | nodes => simp at other
  case vattrs => exact assertVattrs_self rfl
  case materials => exact assertMaterials_self rfl
  all_goals simp [PartTest.asserts, PartTest.parts, OldMesh.upTo]

end

/-- **C159.** The tests of the vertex and the index block assert nothing about them. -/
theorem C159_assert_nothing (p : OldPart F64) (o : OldMesh F64) :
    PartTest.asserts p o .vertices = .ok true ∧ PartTest.asserts p o .index = .ok true :=
  ⟨by simp [PartTest.asserts], by simp [PartTest.asserts]⟩

/-- What the deprecated module saves is the file itself exactly if no lod has two different nodes and there is no
signalling NaN; it is always as long as the file. -/
theorem saved_same {pl : Plat} {k : Kind} {file : Bytes} {m : Mesh F64} (loaded : load pl k file = .ok m) :
    ∃ out, oldSave pl m.old = ⟨out, none⟩ ∧ out.length = file.length ∧
      (out = file ↔ NoSignalling pl k file ∧ ∀ l ∈ m.lods, SameNodes l) := by
  obtain ⟨r, hr, rfl⟩ := load_ok_map.1 loaded
  obtain ⟨out, h1, h2⟩ := C84_save_unmodified pl k file _ r loaded hr
  refine ⟨out, h1, ?_, ?_⟩
  · have e := C151_loaded (load_ok_map.2 ⟨_, h2, rfl⟩ : load (F := F64) pl k out = .ok _)
    have e' := C151_loaded loaded
    rw [restSize_map, dataSize_map, restSize_map, dataSize_map, restSize_lastNodes] at e
    rw [restSize_map, dataSize_map] at e'
    rw [e, e']
    rfl
  · constructor
    · rintro rfl
      have hq : r.lastNodes.map quieted = r := by
        rw [h2] at hr
        injection hr
      have hs : NoSignalling pl k out := by
        intro r' hr' w hw
        rw [hr] at hr'
        injection hr' with hr'
        subst hr'
        rw [← hq] at hw
        obtain ⟨v, rfl⟩ := floats_of_map hw
        rw [← packF_unpackF]
        exact not_SNaN_packF _
      exact ⟨hs, (C84_identical_iff pl k out _ loaded hs).1 h1⟩
    · rintro ⟨hs, hn⟩
      have h := (C84_identical_iff pl k file _ loaded hs).2 hn
      rw [h1] at h
      injection h

/-- **C159.** The three tests that compare the saved copy with the file, which may have bytes that the module
does not read: they pass exactly if it has none, and the copy is the same (no lod has two different nodes, and
there is no signalling NaN) or `filecmp` does not look, because both files were changed at the same time. -/
theorem C159_identical {pl : Plat} {fs fs1 : FS} {path clone : Str} {loc loc' : Loc} {file suffix : Bytes}
    {m : Mesh F64} (there : fs.resolve path = .ok loc) (content : fs.node loc = some (.file (file ++ suffix)))
    (loaded : load pl (oldKind path) file = .ok m) (first : ¬ FirstEmpty m.lods)
    (dir : fs.ensureDir clone = (fs1, none)) (names : fs1.resolve clone = .ok loc')
    (free : fs1.node loc' ≠ some .dir) (apart : loc' ≠ loc) (sameTime : Bool) :
    ∃ b, identicalTest sameTime pl fs path clone = .ok b ∧
      (b = true ↔ suffix = [] ∧ (sameTime = true ∨
        NoSignalling pl (oldKind path) file ∧ ∀ l ∈ m.lods, SameNodes l)) := by
  obtain ⟨out, h1, h2, h3⟩ := saved_same loaded
  have hl : oldLoadPath pl fs path = .ok m.old := by
    unfold oldLoadPath FS.read
    rw [there]
    simp only
    rw [content]
    exact C83_loads_the_same pl _ file suffix m loaded first
  have how : fs1.openWrite clone = .ok (fs1.set loc' (.file []), loc') := by
    unfold FS.openWrite
    rw [names]
    simp only
  have hg := Grown.ensureDir fs clone
  rw [dir] at hg
  have hw := (openWrite_set how out).grown hg
  have hs : oldSavePath pl fs m.old clone = ((fs1.set loc' (.file [])).set loc' (.file out), none) := by
    unfold oldSavePath
    rw [dir]
    simp only
    rw [how]
    simp only
    rw [h1]
  have hr : ((fs1.set loc' (.file [])).set loc' (.file out)).resolve path = .ok loc := by
    refine resolve_mono hw.cwd (fun q hq => ?_) path loc there
    by_cases e : q = loc'
    · subst e
      exact absurd hq hw.no_dir
    · rcases hw.others q e with h | ⟨h, -⟩
      · rw [h, hq]
      · rw [h] at hq
        cases hq
  have hc : ((fs1.set loc' (.file [])).set loc' (.file out)).node loc = some (.file (file ++ suffix)) := by
    rcases hw.others loc (Ne.symm apart) with h | ⟨h, -⟩
    · rw [h, content]
    · rw [h] at content
      cases content
  refine ⟨(file ++ suffix).length == out.length && (sameTime || (file ++ suffix) == out), ?_, ?_⟩
  · unfold identicalTest
    rw [hl]
    simp only
    rw [hs]
    simp only
    unfold fileCmp FS.stat
    rw [hr, hw.names]
    simp only
    rw [hc, hw.content]
  · rw [Bool.and_eq_true, Bool.or_eq_true, beq_iff_eq, beq_iff_eq, List.length_append, ← h2, ← h3]
    constructor
    · rintro ⟨e, h⟩
      have : suffix = [] := List.eq_nil_of_length_eq_zero (by omega)
      subst this
      rw [List.append_nil] at h
      exact ⟨rfl, h.imp id Eq.symm⟩
    · rintro ⟨rfl, h⟩
      rw [List.append_nil]
      exact ⟨rfl, h.imp id Eq.symm⟩

/-- A file in `/w` and the names of the tests. -/
def testFS (m : Mesh W) : FS := fsWith [['w'], "m.staticmesh".toList] (exportMesh win m).bytes

def testName : Str := "./m.staticmesh".toList

def testClone : Str := "./a.staticmesh".toList

/-- `TestedFile` holds of the sample of the repository. -/
example : ∃ o : OldMesh F64, TestedFile win boxFS "./box.staticmesh".toList testClone o ∧ o.vertnum = 25 := by
  obtain ⟨o, ho⟩ := isOk_get (x := oldLoadPath (F := F64) win boxFS "./box.staticmesh".toList) (by decide +kernel)
  have h : (oldLoadPath (F := F64) win boxFS "./box.staticmesh".toList).toOption.map (fun o =>
      (decide (o.vertices.length ≠ 1), o.vertnum)) = some (true, 25) := by decide +kernel
  rw [ho] at h
  simp only [Except.toOption, Option.map_some, Option.some.injEq, Prod.mk.injEq, decide_eq_true_eq] at h
  refine ⟨o, ⟨ho, by decide +kernel, by decide +kernel, h.1, boxFS, [['w'], "a.staticmesh".toList], ?_,
    by decide +kernel, by decide +kernel⟩, h.2⟩
  unfold FS.ensureDir
  rw [if_pos (by decide +kernel)]

/-- It passes the tests of its own; it has one geom only. -/
example : [PartTest.header.run win boxFS "./box.staticmesh".toList testClone,
      PartTest.geomTable.run win boxFS "./box.staticmesh".toList testClone,
      PartTest.geomTableDest.run win boxFS "./box.staticmesh".toList testClone,
      PartTest.nodes.run win boxFS "./box.staticmesh".toList testClone,
      PartTest.materials.run win boxFS "./box.staticmesh".toList testClone,
      identicalTest false win boxFS "./box.staticmesh".toList testClone] =
    [.ok true, .ok true, .error .indexError, .ok true, .ok true, .ok true] := by
  decide +kernel

/-- `tiny` with a NaN in the box of its lod. -/
def nanBox : Mesh W :=
  { tiny with geoms := tiny.geoms.map fun g => { g with lods := g.lods.map fun l =>
      { l with min := ⟨0, 0x7fc00000, 0⟩ } } }

/-- A header with 1000 in it fails its test, a lod with a NaN in its box that of the nodes, and two different
nodes that of the whole file, unless the times agree. -/
example : [PartTest.header.run win (testFS { tiny with head := ⟨0, 11, 0, 1000, 0⟩ }) testName testClone,
      PartTest.nodes.run win (testFS nanBox) testName testClone,
      identicalTest false win (testFS twoNodes) testName testClone,
      identicalTest true win (testFS twoNodes) testName testClone] =
    [.ok false, .ok false, .ok false, .ok true] := by
  decide +kernel

/-- The hypotheses of `C159_identical` about the places. -/
example : (testFS twoNodes).resolve testName = .ok [['w'], "m.staticmesh".toList] ∧
    (testFS twoNodes).resolve testClone = .ok [['w'], "a.staticmesh".toList] ∧
    (testFS twoNodes).exists (dirname testClone) = true ∧
    ((testFS twoNodes).node [['w'], "m.staticmesh".toList]).isSome ∧
    (testFS twoNodes).node [['w'], "a.staticmesh".toList] = none ∧
    (load (F := F64) win (oldKind testName) (exportMesh win twoNodes).bytes).isOk = true := by
  decide +kernel

end Bf2
