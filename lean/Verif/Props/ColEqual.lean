import Verif.ColEqualLemmas
import Verif.Props.ColFormat

/-!
# C70: comparing collision meshes

`ColMesh` itself has no `__eq__`: two mesh objects are equal only when they are the same object.  The
comparisons are those of geoms, subgeoms and lods.
-/

namespace Bf2

/-- **C70.** Two lods are equal exactly when all their fields are, with the numbers of their faces' `m`
but not `material`. -/
theorem C70_lod_equal (a b : ColLod F64 ColFace) : eqColLod a b = .ok true ↔ ColLodEqual a b :=
  eqColLod_true a b

/-- **C70.** Two subgeoms, and two geoms, are equal exactly when their counts and their lods are. -/
theorem C70_geom_equal (a b : ColGeom F64 ColFace) : eqColGeom a b = .ok true ↔ ColGeomEqual a b :=
  eqColGeom_true a b

theorem C70_subgeom_equal (a b : ColSub F64 ColFace) : eqColSub a b = .ok true ↔ ColSubEqual a b :=
  eqColSub_true a b

/-- **C70.** Comparing two lods raises exactly when they have equally many faces and, after equal ones,
two with the same corners one of which was made by the constructor: it has no `m`. -/
theorem C70_lod_raises (a b : ColLod F64 ColFace) (e : Err) : eqColLod a b = .error e ↔
    e = .attributeError ∧ a.faces.length = b.faces.length ∧
    ∃ (i : Nat) (x y : ColFace), a.faces[i]? = some x ∧ b.faces[i]? = some y ∧ SameCorners x y ∧
      (x.m = none ∨ y.m = none) ∧
      ∀ j < i, ∀ x y, a.faces[j]? = some x → b.faces[j]? = some y → FaceEqual x y := by
  rw [eqColLod_error, listEq_error]
  simp only [eqFace_error, eqFace_true]
  constructor
  · rintro ⟨h1, i, x, y, h2, h3, ⟨h4, h5, h6⟩, h7⟩
    exact ⟨h4, h1, i, x, y, h2, h3, h5, h6, h7⟩
  · rintro ⟨h4, h1, i, x, y, h2, h3, h5, h6, h7⟩
    exact ⟨h1, i, x, y, h2, h3, ⟨h4, h5, h6⟩, h7⟩

/-- The lod of the small file with its face made by the constructor: not even equal to itself; and a
lod with another face. -/
example :
    let l : ColLod F64 ColFace := triLod.map unpackF FileFace.obj
    let made := { l with faces := [⟨0, 1, 2, 7, none⟩] }
    let other := { l with faces := [⟨0, 2, 1, 7, none⟩] }
    let painted := { l with faces := [⟨0, 1, 2, 5, some 7⟩] }
    eqColLod l l = .ok true ∧ eqColLod l made = .error .attributeError ∧
      eqColLod made made = .error .attributeError ∧ eqColLod l other = .ok false ∧
      eqColLod l painted = .ok true := by
  decide +kernel

/-- **C70.** Comparing geoms of loaded meshes never raises. -/
theorem C70_loaded_never_raises (pl pl' : Plat) (file file' : Bytes) (m m' : ColMesh F64 ColFace)
    (h : loadCol pl file = .ok m) (h' : loadCol pl' file' = .ok m') :
    ∀ g ∈ m.geoms, ∀ g' ∈ m'.geoms, ∃ v, eqColGeom g g' = .ok v := by
  intro g hg g' hg'
  have w := (C59_loaded_wf pl file m h).2
  have w' := (C59_loaded_wf pl' file' m' h').2
  refine eqColGeom_total g g' (fun s hs l hl f hf => (w l ?_ f hf).2)
    (fun s hs l hl f hf => (w' l ?_ f hf).2)
  · exact List.mem_flatMap.2 ⟨g, hg, List.mem_flatMap.2 ⟨s, hs, hl⟩⟩
  · exact List.mem_flatMap.2 ⟨g', hg', List.mem_flatMap.2 ⟨s, hs, hl⟩⟩

/-- **C70.** The round trip that the test suite makes: load, save, load again, compare the geoms.  A
geom equals its copy exactly when all its materials are 0 and none of its floats is a NaN. -/
theorem C70_round_trip (pl : Plat) (r : ColFile) (rest : Bytes) (hr : ColWF r)
    (hf : ∀ i ∈ r.items, i.Fits pl) :
    loadCol (F := F64) pl (layout pl r.items ++ rest) = .ok r.obj ∧
    ∃ bs m', writeCol pl r.obj = ⟨bs, none⟩ ∧ loadCol (F := F64) pl bs = .ok m' ∧
      List.Forall₂ (fun (x : ColGeom (BitVec 32) FileFace) (g : ColGeom F64 ColFace × ColGeom F64 ColFace) =>
          eqColGeom g.1 g.2 = .ok true ↔ ∀ s ∈ x.subgeoms, ∀ l ∈ s.lods,
            (∀ f ∈ l.faces, f.material = 0) ∧ ∀ w ∈ l.floats, F64.isNaN (unpackF w) = false)
        r.geoms (r.obj.geoms.zip m'.geoms) := by
  obtain ⟨h1, h2⟩ := C62_load_save pl r rest hr hf
  refine ⟨h1, _, _, h2, C61_reload_of_save pl r.obj _ (hr.map _ _) h2, ?_⟩
  have hfix : ∀ x : ColGeom (BitVec 32) FileFace,
      ((x.map unpackF FileFace.obj).map (fun y => unpackF (packF y))
        fun f => { f with material := 0, m := some f.material }) =
      (x.map unpackF FileFace.obj).map id fun f => { f with m := some 0 } := by
    intro x
    have e1 : (fun y => unpackF (packF y)) ∘ unpackF = id ∘ unpackF :=
      funext unpackF_packF_unpackF
    have e2 : (fun f : ColFace => { f with material := 0, m := some f.material }) ∘ FileFace.obj =
      (fun f : ColFace => { f with m := some 0 }) ∘ FileFace.obj := rfl
    rw [ColGeom.map_map, ColGeom.map_map, e1, e2]
  have key : ∀ x : ColGeom (BitVec 32) FileFace,
      eqColGeom (x.map unpackF FileFace.obj) ((x.map unpackF FileFace.obj).map
        (fun y => unpackF (packF y)) fun f => { f with material := 0, m := some f.material }) =
        .ok true ↔ ∀ s ∈ x.subgeoms, ∀ l ∈ s.lods,
          (∀ f ∈ l.faces, f.material = 0) ∧ ∀ w ∈ l.floats, F64.isNaN (unpackF w) = false := by
    intro x
    rw [hfix, eqColGeom_true, colGeomEqual_map]
    have hface : ∀ f : FileFace, FaceEqual f.obj { f.obj with m := some 0 } ↔ f.material = 0 := by
      intro f
      simp [FaceEqual, SameCorners, FileFace.obj, eq_comm]
    have hfl : ∀ l : ColLod (BitVec 32) FileFace, (l.map unpackF FileFace.obj).floats =
        l.floats.map unpackF := by
      intro l
      simp [ColLod.floats, ColLod.map, Vec3.floats, Vec3.map, ColY.map, List.map_flatMap,
        List.flatMap_map]
    simp only [ColGeom.map, List.forall_mem_map, ColSub.map, hfl, id, numEq_self]
    simp only [ColLod.map, List.forall_mem_map, hface]
  show List.Forall₂ _ r.geoms ((r.geoms.map _).zip ((r.geoms.map _).map _))
  rw [List.map_map, List.zip_map', List.forall₂_map_right_iff, List.forall₂_same]
  exact fun x _ => key x

/-- The sample file, whose materials are 0, and the small one, whose materials are not. -/
example :
    (loadCol (F := F64) win evilBoxCol).toOption.bind (fun m =>
      (loadCol (F := F64) win (writeCol win m).bytes).toOption.map fun m' =>
        (m.geoms.zip m'.geoms).map fun g => (eqColGeom g.1 g.2).toOption) = some [some true] ∧
    (loadCol (F := F64) win (writeCol win triCol.obj).bytes).toOption.map (fun m' =>
        (triCol.obj.geoms.zip m'.geoms).map fun g => (eqColGeom g.1 g.2).toOption) =
      some [some false] := by
  decide +kernel

end Bf2
