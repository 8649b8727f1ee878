import Verif.RepoDetectLemmas
import Verif.Props.Format
import Verif.Props.Readme

/-!
# What the write tests of the package can tell: C135
-/

namespace Bf2

/-- The tests of `test_visiblemesh_write.py` pass for two consistent meshes of one kind exactly if all
fields agree, floats as numbers, with the upper bounds of materials left out. -/
theorem C135_tests_show {s m : Mesh F64} (ws : MeshWF s) (wm : MeshWF m) (kind : s.kind = m.kind) :
    writeTests s m = .ok true ↔ MeshAgrees s m :=
  writeTests_agrees ws wm kind

/-- Where there is no `-0.0`: then the meshes are the same but for the upper bounds of materials. -/
theorem C135_same_but_mmax {s m : Mesh F64} (ws : MeshWF s) (wm : MeshWF m) (kind : s.kind = m.kind)
    (hs : ∀ x ∈ s.floats, NotMinusZero x) (hm : ∀ x ∈ m.floats, NotMinusZero x)
    (passed : writeTests s m = .ok true) : s.withMmax (fun _ => none) = m.withMmax (fun _ => none) :=
  ((writeTests_agrees ws wm kind).1 passed).strip kind hs hm

/-- Whatever program wrote the file: if the loader is the one modelled, the tests pass, there is no `-0.0`
and no signalling NaN, and the upper bounds are right, then the file is, byte for byte, the one that `export`
writes. -/
theorem C135_file_determined (pl : Plat) (file : Bytes) {s m : Mesh F64} (wm : MeshWF m)
    (loaded : load pl m.kind file = .ok s) (h1 : m.indexnum ≠ 1) (quiet : NoSignalling pl m.kind file)
    (hs : ∀ x ∈ s.floats, NotMinusZero x) (hm : ∀ x ∈ m.floats, NotMinusZero x)
    (passed : writeTests s m = .ok true) (mmax : s.mats.map Mat.mmax = m.mats.map Mat.mmax) :
    exportMesh pl m = ⟨file, none⟩ := by
  obtain ⟨ws, hk⟩ := C06_loaded_wf pl _ file s loaded
  have e : s = m := eq_of_strip (C135_same_but_mmax ws wm hk hs hm passed) mmax
  subst e
  exact C01_unmodified_export_identical pl _ file s loaded h1 quiet

/-- The upper bounds are not tested: take any program that writes what `export` writes, but other upper
bounds (binary32 values) in the materials that have some.  If the tests pass for the right program, they pass
for this one. -/
theorem C135_blind_to_mmax (pl : Plat) {m : Mesh F64} (wm : MeshWF m) (f : Mat F64 → Option (Vec3 F64))
    (some : ∀ a ∈ m.mats, (f a).isSome = a.mmax.isSome)
    (stored : ∀ x ∈ m.floats, unpackF (packF x) = x)
    (storedMmax : ∀ a ∈ m.mats, ∀ x ∈ optFloats (f a), unpackF (packF x) = x)
    {right wrong : Bytes} (hr : exportMesh pl m = ⟨right, none⟩)
    (hw : exportMesh pl (m.withMmax f) = ⟨wrong, none⟩) :
    ∃ s s', load pl m.kind right = .ok s ∧ load pl m.kind wrong = .ok s' ∧
      (writeTests s m = .ok true → writeTests s' m = .ok true) := by
  have fixed : ∀ m : Mesh F64, (∀ x ∈ m.floats, unpackF (packF x) = x) →
      m.map (fun x => unpackF (packF x)) = m := fun m h => by
    conv_rhs => rw [← Mesh.map_id m]
    exact Mesh.map_congr h
  have wf := withMmax_wf wm some
  have l1 := C02_reload_of_export pl m right wm hr
  have l2 := C02_reload_of_export pl _ wrong wf hw
  rw [fixed m stored] at l1
  rw [fixed _ (withMmax_floats stored storedMmax)] at l2
  refine ⟨_, _, l1, l2, fun passed => ?_⟩
  rw [writeTests_agrees wm wm rfl] at passed
  exact (writeTests_agrees wf wm rfl).2 (withMmax_agrees f passed)

/-! ## Samples -/

/-- A material of a box, with bounds; `b` is the upper one. -/
def detectMat (b : Vec3 F64) : Mat F64 :=
  { (matOf (0, 1, 0, 3) : Mat F64) with mmin := some ⟨flt 0, flt 0, flt 0⟩, mmax := some b }

def detectLod (b : Vec3 F64) : Lod F64 where
  min := ⟨flt 0, flt 0, flt 0⟩
  max := ⟨flt 1, flt 1, flt 1⟩
  pivot := none
  rignum := 0
  rigs := []
  nodenum := 0
  nodes := []
  matnum := 1
  materials := [detectMat b]

def detectMesh (b : Vec3 F64) : Mesh F64 :=
  { plainBox with geomnum := 1, geoms := [⟨1, [detectLod b]⟩] }

/-- A program that writes the lower bound in the place of the upper one: another file, and all tests
pass. -/
example :
    let m := detectMesh ⟨flt 1, flt 1, flt 1⟩
    (exportMesh win m).err = none ∧ (exportMesh win (m.withMmax Mat.mmin)).err = none ∧
    (exportMesh win m).bytes ≠ (exportMesh win (m.withMmax Mat.mmin)).bytes ∧
    (load (F := F64) win staticKind (exportMesh win (m.withMmax Mat.mmin)).bytes).toOption.map (fun s =>
      decide (writeTests s m = .ok true)) = some true ∧
    (∀ x ∈ m.floats, unpackF (packF x) = x) ∧
    (∀ a ∈ m.mats, (Mat.mmin a).isSome = a.mmax.isSome) := by decide +kernel

/-- The right program: the hypotheses of `C135_file_determined`. -/
example :
    let m := detectMesh ⟨flt 1, flt 1, flt 1⟩
    let file := (exportMesh win m).bytes
    load win m.kind file = .ok m ∧ MeshWF m ∧ m.indexnum ≠ 1 ∧ NoSignalling win m.kind file ∧
      (∀ x ∈ m.floats, NotMinusZero x) ∧ writeTests m m = .ok true := by
  have hl : load win (detectMesh ⟨flt 1, flt 1, flt 1⟩).kind
      (exportMesh win (detectMesh ⟨flt 1, flt 1, flt 1⟩)).bytes = .ok (detectMesh ⟨flt 1, flt 1, flt 1⟩) := by
    decide +kernel
  refine ⟨hl, (C06_loaded_wf _ _ _ _ hl).1, by decide, ?_, ?_, by decide +kernel⟩
  · intro r hr
    have : (load (F := W) win (detectMesh ⟨flt 1, flt 1, flt 1⟩).kind
        (exportMesh win (detectMesh ⟨flt 1, flt 1, flt 1⟩)).bytes).toOption.map
        (fun r => r.floats.all fun w => !decide (SNaN w)) = some true := by decide +kernel
    rw [hr] at this
    simpa [Except.toOption] using this
  · unfold NotMinusZero
    decide +kernel

end Bf2
