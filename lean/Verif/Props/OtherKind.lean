import Verif.KindLemmas
import Verif.Props.RepoTests
import Verif.Props.Session

/-!
# A mesh written under the extension of another kind (C125)
-/

namespace Bf2

/-- **C125.** What was written for one kind, opened as another: the same mesh (its floats rounded to
binary32 as always, C02) comes back exactly if the two kinds have the same fields. -/
theorem C125_other_kind {pl : Plat} {m : Mesh F64} {bs : Bytes} (hw : MeshWF m)
    (he : exportMesh pl m = ⟨bs, none⟩) (k : Kind) :
    load pl k bs = .ok (({ m with kind := k } : Mesh F64).map fun x => unpackF (packF x)) ↔
      KindAgrees m k := by
  constructor
  · intro h
    obtain ⟨hw', -⟩ := C06_loaded_wf pl k bs _ h
    have hs : k.isSkinned = m.kind.isSkinned := by
      by_contra hs
      have hone : m.indexnum ≠ 1 := by
        intro h1
        have := hw.index
        rcases hi : m.index with v | l
        · rw [exportMesh, hi] at he
          have : (exportMesh pl m).err = none := by rw [exportMesh, hi, he]
          simp only [exportMesh, all_cons_err] at this
          have h2 := this.2.2.2.2.2.2.2.2.2.2.2.1
          rw [hi] at h2
          cases h2
        · rw [hi] at this
          exact this.2.1 h1
      obtain ⟨r, hr, -⟩ := load_ok_map.1 h
      obtain ⟨out, ho, -, hlen, -⟩ := C12_signalling_nans_quieted pl k bs _ r h hr hone
      have ho' : exportMesh pl ({ m with kind := k } : Mesh F64) = ⟨out, none⟩ := by
        have e1 := exportMesh_map pl ({ m with kind := k } : Mesh F64)
        have e2 := exportMesh_map pl (({ m with kind := k } : Mesh F64).map fun x => unpackF (packF x))
        rw [Mesh.map_map] at e2
        rw [e1, ← ho, e2]
        exact (congrArg (fun f => exportMesh pl (Mesh.map f { m with kind := k }))
          (funext packF_unpackF_packF)).symm
      exact exportMesh_skinned hw hw' hs he ho' hlen.length_eq
    refine ⟨hs, ?_⟩
    by_cases h1 : k.isSkinned = true
    · exact .inl h1
    by_cases h2 : k.isBundled = m.kind.isBundled
    · exact .inr (.inl h2)
    refine .inr (.inr fun g hg l hl => ?_)
    have n := ((hw.geom g hg).nodes l hl).5
    have n' := (hw'.lod_of_map (m := { m with kind := k }) hg hl).1.5
    simp only at n'
    rw [← hs] at n
    rw [Bool.not_eq_true] at h1
    rw [h1] at n n'
    cases hk : k.isBundled <;> cases hk' : m.kind.isBundled <;> simp_all <;> omega
  · intro ha
    have := C02_reload_of_export pl { m with kind := k } bs (hw.rekind ha)
      (by rw [exportMesh_rekind hw ha, he])
    exact this

/-- **C125.** A mesh opened from a file, exported under a name of any extension and opened again under
that name, is the object in memory but for the flags of its kind, exactly if the two kinds have the same
fields. -/
theorem C125_other_extension {pl : Plat} {fs fs' : FS} {o o' : Obj F64} {path target : Str}
    {fl fl' : Flags} (opened : construct pl fs (some path) fl = .ok o)
    (exported : exportObj pl fs o (some target) true = (fs', o', none)) (named : target ≠ []) :
    construct pl fs' (some target) fl' =
        .ok { o' with mesh := { o'.mesh with kind := kindOfName target } } ↔
      KindAgrees o'.mesh (kindOfName target) := by
  obtain ⟨-, hload, file, -, hl⟩ := construct_loaded opened
  obtain ⟨hw, hk⟩ := C06_loaded_wf pl _ file o.mesh hl
  obtain ⟨-, herr, hname, hb⟩ := C18_one_file exported
  have hnm : o'.filename = target := by
    rw [hname]
    rcases target with _ | ⟨c, cs⟩
    · exact absurd rfl named
    · rfl
  have hld : o'.isLoaded = true := by
    rw [(C21_only_bounds_and_name exported ⟨F64.zero, F64.zero, F64.zero⟩).1, hload]
  simp only [if_true] at hb
  have hw' : MeshWF o'.mesh := update_wf (by rw [hb]) hw
  have hsame : ({ o'.mesh with kind := kindOfName target } : Mesh F64).map
      (fun x => unpackF (packF x)) = { o'.mesh with kind := kindOfName target } := by
    conv_rhs => rw [← Mesh.map_id ({ o'.mesh with kind := kindOfName target } : Mesh F64)]
    refine Mesh.map_congr fun x hx => ?_
    rcases update_floats hb x hx with rfl | hx
    · decide +kernel
    · exact loaded_floats hl x hx
  have hre := C125_other_kind hw' (bs := (exportMesh pl o'.mesh).bytes) (by rw [← herr])
    (kindOfName target)
  have := C18_reload exported (by rw [hnm]; exact named) fl'
  rw [hnm] at this
  rw [this, ← hre, hsame]
  rcases load (F := F64) pl (kindOfName target) (exportMesh pl o'.mesh).bytes with e | m
  · simp
  · simp only [Except.ok.injEq]
    rcases o' with ⟨n, b, m'⟩
    simp only at hnm hld
    subst hnm hld
    simp

/-! ## Examples -/

/-- The sample file of the repository has a lod with nodes: it does not come back as bundled mesh. -/
example : (load (F := F64) win staticKind evilBox).toOption.map (fun m =>
    (m.geoms.map fun g => g.lods.map Lod.nodenum, (exportMesh win m).err,
      (load (F := F64) win ⟨false, true, false, false⟩ (exportMesh win m).bytes).toOption.isSome,
      (load (F := F64) win ⟨true, false, false, false⟩ (exportMesh win m).bytes).toOption.isSome)) =
    some ([[1]], none, false, false) := by decide +kernel

/-- Two geoms without nodes, opened from a static mesh and exported as bundled mesh: the hypotheses of
both theorems hold, and the mesh comes back. -/
example :
    let o : Obj F64 := ⟨"./a.staticmesh".toList, true, sesMesh⟩
    let out := exportObj win sesFS o (some "./b.bundledMesh".toList) true
    construct win sesFS (some "./a.staticmesh".toList) ⟨false, false, false⟩ = .ok o ∧
    out.2.2 = none ∧ (exportMesh win out.2.1.mesh).err = none ∧
    (construct win out.1 (some "./b.bundledMesh".toList) ⟨false, false, false⟩).toOption.map
      (fun r => decide (r.mesh = { out.2.1.mesh with kind := ⟨false, true, false, false⟩ })) = some true ∧
    (load (F := F64) win ⟨true, false, false, false⟩ (exportMesh win out.2.1.mesh).bytes).toOption.isSome =
      false := by
  decide +kernel

example : KindAgrees sesMesh ⟨false, true, false, false⟩ ∧ ¬ KindAgrees sesMesh ⟨true, false, false, false⟩ :=
  ⟨⟨rfl, .inr (.inr (by decide +kernel))⟩, fun h => by cases h.1⟩

end Bf2
