import Verif.ColTestsLemmas
import Verif.Props.ColEqual
import Verif.Props.ColFailed
import Verif.Props.ColPrograms
import Verif.Props.OldBox

/-!
# C164: when the tests of collision meshes pass
-/

namespace Bf2

section
variable {pl : Plat} {fs fs1 : FS} {path clone : Str} {loc : Loc} {m : ColMesh F64 ColFace}

theorem loadColPath_ok (h : loadColPath pl fs path = .ok m) :
    ∃ file, fs.read path = .ok file ∧ loadCol pl file = .ok m := by
  unfold loadColPath at h
  split at h
  · cases h
  · next file hr => exact ⟨file, hr, h⟩

/-- Saving a loaded mesh raises nothing. -/
theorem loaded_writes {file : Bytes} (h : loadCol pl file = .ok m) : ∃ bs, writeCol pl m = ⟨bs, none⟩ := by
  obtain ⟨r, rest, h1, h2, -, rfl⟩ := (C59_loads_iff_layout pl file m).1 h
  exact ⟨_, (C62_load_save pl r rest h1 h2).2⟩

/-- **C164.** If the file of the test does not load, then the tests end with the exception of the load. -/
theorem C164_unloaded {e : Err} (h : loadColPath (F := F64) pl fs path = .error e) :
    colHeaderTest pl fs path clone = .error e ∧ colGeomsTest pl fs path clone = .error e := by
  unfold colHeaderTest colGeomsTest
  rw [h]
  exact ⟨rfl, rfl⟩

/-- **C164.** The test of the header passes on every file that loads, wherever the copy can be written. -/
theorem C164_header (h : loadColPath pl fs path = .ok m) (hd : fs.ensureDir clone = (fs1, none))
    (hr : fs1.resolve clone = .ok loc) (hn : fs1.node loc ≠ some .dir) :
    colHeaderTest pl fs path clone = .ok true := by
  obtain ⟨file, -, hl⟩ := loadColPath_ok h
  obtain ⟨r, rest, -, hf, -, rfl⟩ := (C59_loads_iff_layout pl file m).1 hl
  obtain ⟨⟨⟨h1, h2, -⟩, -⟩, -⟩ := (meshFits_iff pl r).1 hf
  have hw : writeColHeader pl r.obj = ⟨layout pl [.long r.u1, .long r.version], none⟩ := by
    refine ((writeLong_writes r.u1).seq ((writeLong_writes r.version).seq .nil) _).2 ⟨?_, rfl⟩
    intro i hi
    simp only [List.append_nil, List.cons_append, List.nil_append, List.mem_cons, List.not_mem_nil,
      or_false] at hi
    rcases hi with rfl | rfl
    · exact h1
    · exact h2
  obtain ⟨fs', e1, e2⟩ := writeInto_place hd hr hn (writeColHeader pl r.obj)
  rw [hw] at e1 e2
  have e3 := readColHeader_parses pl r.u1 r.version h1 h2 []
  rw [List.append_nil] at e3
  unfold colHeaderTest
  rw [h]
  simp only
  rw [hw, e1]
  simp only
  rw [e2]
  simp only
  rw [e3]
  simp [thenAssert, ColMesh.obj, ColMesh.map]

/-- **C164.** The test of the geoms raises nothing on a file that loads, and passes exactly if every face of
the file has the number 0 and no float of it is a NaN: saving writes 0 for the number of a loaded face. -/
theorem C164_geoms (h : loadColPath pl fs path = .ok m) (hd : fs.ensureDir clone = (fs1, none))
    (hr : fs1.resolve clone = .ok loc) (hn : fs1.node loc ≠ some .dir) :
    (∃ v, colGeomsTest pl fs path clone = .ok v) ∧
    (colGeomsTest pl fs path clone = .ok true ↔ ∀ l ∈ m.lods,
      (∀ f ∈ l.faces, f.m = some 0) ∧ ∀ x ∈ l.floats, F64.isNaN x = false) := by
  obtain ⟨file, -, hl⟩ := loadColPath_ok h
  obtain ⟨hwf, hfaces⟩ := C59_loaded_wf pl file m hl
  have hfloats : ∀ l ∈ m.lods, ∀ x ∈ l.floats, unpackF (packF x) = x := by
    obtain ⟨r, rest, -, -, -, rfl⟩ := (C59_loads_iff_layout pl file m).1 hl
    exact obj_floats r
  obtain ⟨bs, hw⟩ := loaded_writes hl
  obtain ⟨fs', e1, e2⟩ := writeInto_place hd hr hn (writeCol pl m)
  rw [hw] at e1 e2
  have hl2 := C61_reload_of_save pl m bs hwf hw
  have htest : colGeomsTest pl fs path clone = listEq eqColGeom (m.geoms.map (ColGeom.map
      (fun x => unpackF (packF x)) fun f => { f with material := 0, m := some f.material })) m.geoms := by
    unfold colGeomsTest
    rw [h]
    simp only
    rw [hw, e1]
    simp only
    unfold loadColPath
    rw [e2]
    simp only
    rw [hl2]
    simp [thenAssert, ColMesh.map]
  constructor
  · rw [htest]
    exact listEq_total _ _ fun g hg g' hg' => C70_loaded_never_raises pl pl bs file _ m hl2 hl g hg g' hg'
  · rw [htest, listEq_true eqColGeom_true]
    have hflip : ∀ {l r : List (ColGeom F64 ColFace)}, List.Forall₂ ColGeomEqual l r ↔
        List.Forall₂ ColGeomEqual r l :=
      ⟨forall₂_symm fun _ _ => ColGeomEqual.flip, forall₂_symm fun _ _ => ColGeomEqual.flip⟩
    rw [hflip, List.forall₂_map_right_iff, List.forall₂_same]
    simp only [colGeomEqual_map, ColMesh.lods, List.forall_mem_flatMap]
    refine forall₂_congr fun g hg => forall₂_congr fun s hs => forall₂_congr fun l hl' => ?_
    have hm : l ∈ m.lods := List.mem_flatMap.2 ⟨g, hg, List.mem_flatMap.2 ⟨s, hs, hl'⟩⟩
    refine and_congr (forall₂_congr fun f hf => ?_) (forall₂_congr fun x hx => ?_)
    · have := (hfaces l hm f hf).1
      simp [FaceEqual, SameCorners, this]
    · rw [hfloats l hm x hx]
      exact numEq_self x

/-- **C164.** The test of the box passes wherever the copy can be written. -/
theorem C164_mock (hd : fs.ensureDir clone = (fs1, none)) (hr : fs1.resolve clone = .ok loc)
    (hn : fs1.node loc ≠ some .dir) : colMockTest pl fs clone = .ok true := by
  obtain ⟨out, h1, h2⟩ := C105_colbox_save_reload pl
  obtain ⟨fs', e1, e2⟩ := writeInto_place hd hr hn (writeCol pl mockColBox)
  rw [h1] at e1 e2
  unfold colMockTest loadColPath
  rw [saveCol_eq, h1, e1]
  simp only
  rw [e2]
  simp only
  rw [h2]

/-- **C164.** The merge test on a loaded mesh and its deep copy passes exactly if every lod can hold its
contents twice, and otherwise ends with `struct.error`. -/
theorem C164_merge {file : Bytes} {h : Heap} {a b : ColMesh F64 Nat} (hl : loadCol pl file = .ok m)
    (t : TwoCopies h a b m) (hd : fs.ensureDir clone = (fs1, none)) (hr : fs1.resolve clone = .ok loc)
    (hn : fs1.node loc ≠ some .dir) :
    (colMergeTest pl fs clone h a b = .ok true ↔ ∀ l ∈ m.lods, CanDouble pl m.version l) ∧
    (colMergeTest pl fs clone h a b = .error .structError ↔ ∃ l ∈ m.lods, ¬ CanDouble pl m.version l) := by
  obtain ⟨bs, hw⟩ := loaded_writes hl
  have hfit := (storedFits_iff pl m).1 ((C61_save_writes_layout pl m bs).1 hw).1
  obtain ⟨h', c, hm⟩ := t.merges ⟨F64.ofRat false 1, F64.ofRat false 0, F64.ofRat false 0⟩
  have hsk : (c.map id h').skeleton = m.skeleton := by
    rw [map_skeleton, colMerge_skeleton hm, t.skeletons.1]
  have hv : (c.map id h').version = m.version := congrArg (fun s => s.2.1) hsk
  have key : (∀ i ∈ (c.map id h').stored.items, i.Fits pl) ↔ ∀ l ∈ m.lods, CanDouble pl m.version l := by
    rw [storedFits_iff, hsk, hv]
    have one : ∀ {i j k : Nat} {x : ColLod F64 ColFace}, m.lodAt i j k = some x →
        ∃ z, (c.map id h').lodAt i j k = some z ∧
          (LodFits pl m.version (z.map packF ColFace.stored) ↔ CanDouble pl m.version x) := by
      intro i j k x hx
      obtain ⟨z0, z, h1, h2, -, -, D, -, -⟩ := doubled_lod t hm ⟨F64.ofRat false 0, F64.ofRat false 0, F64.ofRat false 0⟩ hx
      rw [ColMesh.view, map_lodAt, colTranslate_lodAt, h1] at h2
      cases h2
      refine ⟨z0.map id h', by rw [map_lodAt, h1]; rfl, ?_⟩
      rw [← doubled_fits D (hfit.2 x (mem_lods_iff.2 ⟨i, j, k, hx⟩))]
      exact ⟨fun h => ⟨h.1, h.2, h.3, h.4, h.5, h.6, h.7, h.8, h.9, h.10, h.11, h.12⟩,
        fun h => ⟨h.1, h.2, h.3, h.4, h.5, h.6, h.7, h.8, h.9, h.10, h.11, h.12⟩⟩
    constructor
    · rintro ⟨-, h2⟩ l hl
      obtain ⟨i, j, k, hx⟩ := mem_lods_iff.1 hl
      obtain ⟨z, hz, e⟩ := one hx
      exact e.1 (h2 z (mem_lods_iff.2 ⟨i, j, k, hz⟩))
    · refine fun h2 => ⟨hfit.1, fun z hz => ?_⟩
      obtain ⟨i, j, k, hz⟩ := mem_lods_iff.1 hz
      obtain ⟨x, hx⟩ := lodAt_of_skeleton hsk hz
      obtain ⟨z', hz', e⟩ := one hx
      rw [hz] at hz'
      cases hz'
      exact e.2 (h2 x (mem_lods_iff.2 ⟨i, j, k, hx⟩))
  have htest : colMergeTest pl fs clone h a b =
      match (writeCol pl (c.map id h')).err with
      | some e => .error e
      | none => .ok true := by
    obtain ⟨fs', e1, -⟩ := writeInto_place hd hr hn (writeCol pl (c.map id h'))
    unfold colMergeTest
    rw [hm]
    simp only
    rw [saveCol_eq, e1]
    rcases (writeCol pl (c.map id h')).err <;> rfl
  have hex : (∃ l ∈ m.lods, ¬ CanDouble pl m.version l) ↔ ¬ ∀ l ∈ m.lods, CanDouble pl m.version l := by
    simp
  rw [hex, ← key, htest]
  by_cases hk : ∀ i ∈ (c.map id h').stored.items, i.Fits pl
  · rw [(C61_save_writes_layout pl _ _).2 ⟨hk, rfl⟩]
    simpa using hk
  · have : (writeCol pl (c.map id h')).err = some .structError := by
      rw [C149_raises_iff]
      simpa using hk
    rw [this]
    simp [hk]

end

/-- A file `d/f` with this content. -/
def colFileFS (content : Bytes) : FS where
  node q := if q = [] ∨ q = [['d']] then some .dir
    else if q = [['d'], ['f']] then some (.file content) else none
  cwd := []

/-- The small mesh with a face corner 32767. -/
def farCorner : ColFile := ⟨0, 10, 1, [⟨1, [⟨1, [{ triLod with faces := [⟨0, 1, 32767, 0⟩] }]⟩]⟩]⟩

/-- Two copies of it. -/
def farAt (i : Nat) : ColMesh F64 Nat :=
  ⟨0, 10, 1, [⟨1, [⟨1, [triLod.map unpackF fun _ => i]⟩]⟩]⟩

theorem farAt_copies : TwoCopies (fun _ => ⟨0, 1, 32767, 0, some 0⟩) (farAt 0) (farAt 1) farCorner.obj :=
  ⟨by decide +kernel, by decide +kernel, by decide +kernel, by decide +kernel⟩

/-- `e/f` can be written: the hypotheses of the theorems hold. -/
example (content : Bytes) : ∃ fs1 loc, (colFileFS content).ensureDir "e/f".toList = (fs1, none) ∧
    fs1.resolve "e/f".toList = .ok loc ∧ fs1.node loc ≠ some .dir := by
  refine ⟨((colFileFS content).ensureDir "e/f".toList).1, [['e'], ['f']], ?_, ?_, fun h => (by cases h)⟩ <;> rfl

/-- The test of the geoms passes on the sample, and not on the small mesh, whose faces have the number 7;
the test of the header passes on both; on a cut file both raise. -/
example :
    colGeomsTest win (colFileFS evilBoxCol) "d/f".toList "e/f".toList = .ok true ∧
    colHeaderTest win (colFileFS evilBoxCol) "d/f".toList "e/f".toList = .ok true ∧
    colGeomsTest win (colFileFS (layout win triCol.items)) "d/f".toList "e/f".toList = .ok false ∧
    colHeaderTest win (colFileFS (layout win triCol.items)) "d/f".toList "e/f".toList = .ok true ∧
    colGeomsTest win (colFileFS (evilBoxCol.take 99)) "d/f".toList "e/f".toList = .error .structError ∧
    colMockTest win (colFileFS []) "e/f".toList = .ok true := by
  decide +kernel

/-- The merge test passes on the small mesh, and raises if a corner is 32767. -/
example :
    loadCol win (layout win triCol.items) = .ok triCol.obj ∧
    colMergeTest win (colFileFS []) "e/f".toList (fun _ => ⟨0, 1, 2, 0, some 7⟩) (triAt 0 1) (triAt 2 3) =
      .ok true ∧
    loadCol win (layout win farCorner.items) = .ok farCorner.obj ∧
    colMergeTest win (colFileFS []) "e/f".toList (fun _ => ⟨0, 1, 32767, 0, some 0⟩) (farAt 0) (farAt 1) =
      .error .structError := by
  decide +kernel

end Bf2
