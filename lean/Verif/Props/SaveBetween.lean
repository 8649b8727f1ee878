import Verif.NatLemmas
import Verif.Props.RotError

/-!
# Saving and loading between two edits (C128)
-/

namespace Bf2

theorem reloaded_pack (m : Mesh F64) :
    (m.map fun x => unpackF (packF x)).map packF = m.map packF := by
  rw [Mesh.map_map]
  exact Mesh.map_congr fun x _ => packF_unpackF_packF x

theorem export_of_pack (pl : Plat) {m m' : Mesh F64} (h : m.map packF = m'.map packF) :
    exportMesh pl m = exportMesh pl m' := by
  rw [exportMesh_map pl m, exportMesh_map pl m']
  exact congrArg _ h

/-- **C128.** Saving a mesh and loading it again before reordering its geoms makes no difference: the
reordering raises in the same cases, and what is then saved is the same, byte for byte. -/
theorem C128_reorder {pl : Plat} {m m' : Mesh F64} {file : Bytes} (wf : MeshWF m)
    (saved : exportMesh pl m = ⟨file, none⟩) (loaded : load pl m.kind file = .ok m')
    (order : List Int) :
    (changeGeomsOrder m' order).2 = (changeGeomsOrder m order).2 ∧
      exportMesh pl (changeGeomsOrder m' order).1 = exportMesh pl (changeGeomsOrder m order).1 := by
  rw [C02_reload_of_export pl m file wf saved] at loaded
  cases loaded
  rw [changeGeomsOrder_map]
  exact ⟨rfl, export_of_pack pl (reloaded_pack _)⟩

/-- **C128.** The same for merging: it does not matter whether the mesh, the other mesh, both or none
were saved and loaded before. -/
theorem C128_merge {pl : Plat} {m m' o o' : Mesh F64} {file ofile : Bytes} (wf : MeshWF m)
    (saved : exportMesh pl m = ⟨file, none⟩) (loaded : load pl m.kind file = .ok m')
    (owf : MeshWF o) (osaved : exportMesh pl o = ⟨ofile, none⟩)
    (oloaded : load pl o.kind ofile = .ok o') :
    ∀ a ∈ [m, m'], ∀ b ∈ [o, o'], (merge a b).2 = (merge m o).2 ∧
      exportMesh pl (merge a b).1 = exportMesh pl (merge m o).1 := by
  rw [C02_reload_of_export pl m file wf saved] at loaded
  cases loaded
  rw [C02_reload_of_export pl o ofile owf osaved] at oloaded
  cases oloaded
  have key : ∀ a b : Mesh F64, a.map packF = m.map packF → b.map packF = o.map packF →
      (merge a b).2 = (merge m o).2 ∧
        exportMesh pl (merge a b).1 = exportMesh pl (merge m o).1 := by
    intro a b ha hb
    have h1 := merge_map packF a b
    have h2 := merge_map packF m o
    rw [ha, hb, h2] at h1
    exact ⟨(congrArg Prod.snd h1).symm, export_of_pack pl (congrArg Prod.fst h1).symm⟩
  intro a ha b hb
  simp only [List.mem_cons, List.not_mem_nil, or_false] at ha hb
  apply key
  · rcases ha with rfl | rfl
    · rfl
    · exact reloaded_pack m
  · rcases hb with rfl | rfl
    · rfl
    · exact reloaded_pack o

/-- The mesh of thirds is changed by saving, can be reordered and merged. -/
example : MeshWF thirds ∧ (exportMesh win thirds).err = none ∧
    thirds.vertices.map (fun x => unpackF (packF x)) ≠ thirds.vertices ∧
    (changeGeomsOrder thirds [0]).2 = none ∧ (merge thirds thirds).2.isOk = true :=
  ⟨rotatable_wf _ _ (by decide), by decide +kernel, by decide +kernel, by decide +kernel,
    by decide +kernel⟩

/-- Coordinates just above `2^-24`. -/
def tinySteps : Mesh F64 :=
  rotatable F64.zero ((List.range 16).map fun _ => F64.ofRat false (2 ^ (-24 : ℤ) + 2 ^ (-50 : ℤ)))

/-- **C128 does not hold for translations**: moved by 1, this mesh is saved differently when it was
saved and loaded before, since it is then rounded twice. -/
theorem C128_translate_differs : ∃ (pl : Plat) (m m' : Mesh F64) (file : Bytes), MeshWF m ∧
    exportMesh pl m = ⟨file, none⟩ ∧ load pl m.kind file = .ok m' ∧
    (translate m [flt 1, flt 0, flt 0]).2 = none ∧ (translate m' [flt 1, flt 0, flt 0]).2 = none ∧
    (exportMesh pl (translate m' [flt 1, flt 0, flt 0]).1).bytes ≠
      (exportMesh pl (translate m [flt 1, flt 0, flt 0]).1).bytes := by
  have wf : MeshWF tinySteps := rotatable_wf _ _ (by decide)
  have he : (exportMesh win tinySteps).err = none := by decide +kernel
  have hs : exportMesh win tinySteps = ⟨(exportMesh win tinySteps).bytes, none⟩ := by rw [← he]
  exact ⟨win, tinySteps, _, _, wf, hs, C02_reload_of_export win _ _ wf hs, by decide +kernel,
    by decide +kernel, by decide +kernel⟩

end Bf2
