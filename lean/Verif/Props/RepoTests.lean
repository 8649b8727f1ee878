import Verif.RepoEditLemmas
import Verif.Props.Equal
import Verif.Props.Object
import Verif.Props.Bounds
import Verif.Props.Reorder
import Verif.Props.Readme

/-!
# The tests of the package, for all files: C121 to C123
-/

namespace Bf2

/-! ## C121: test_visiblemesh_write.py -/

/-- A mesh opened from a file and exported, as `export` does it by default, under a name of the same kind:
opening the new file gives exactly the object in memory. -/
theorem C121_reload_exact {pl : Plat} {fs fs' : FS} {o o' : Obj F64} {path target : Str} {fl fl' : Flags}
    (opened : construct pl fs (some path) fl = .ok o)
    (exported : exportObj pl fs o (some target) true = (fs', o', none)) (named : target ≠ [])
    (kind : kindOfName target = kindOfName path) : construct pl fs' (some target) fl' = .ok o' := by
  obtain ⟨-, hload, file, -, hl⟩ := construct_loaded opened
  obtain ⟨hw, hk⟩ := C06_loaded_wf pl _ file o.mesh hl
  obtain ⟨-, herr, hname, hb⟩ := C18_one_file exported
  have hnm : o'.filename = target := by
    rw [hname]
    rcases target with _ | ⟨c, cs⟩
    · exact absurd rfl named
    · rfl
  simp only [if_true] at hb
  have hw' : MeshWF o'.mesh := update_wf (by rw [hb]) hw
  have hk' : o'.mesh.kind = kindOfName target := by
    have : (updateBoundaries o.mesh).1.kind = o.mesh.kind := rfl
    rw [hb] at this
    rw [kind, ← hk]
    exact this
  have hre := C02_reload_of_export pl o'.mesh (exportMesh pl o'.mesh).bytes hw' (by rw [← herr])
  have hsame : o'.mesh.map (fun x => unpackF (packF x)) = o'.mesh := by
    conv_rhs => rw [← Mesh.map_id o'.mesh]
    refine Mesh.map_congr fun x hx => ?_
    rcases update_floats hb x hx with rfl | hx
    · decide +kernel
    · exact loaded_floats hl x hx
  have := C18_reload exported (by rw [hnm]; exact named) fl'
  rw [hnm, ← hk', hre, hsame] at this
  rw [this]
  rcases o' with ⟨n, b, m⟩
  simp only at hnm
  subst hnm
  have hl' := (C21_only_bounds_and_name exported ⟨F64.zero, F64.zero, F64.zero⟩).1
  simp only at hl'
  rw [hl', hload]

/-- Then all tests of `test_visiblemesh_write.py` pass exactly if the file has no NaN among its vertices,
pivots and matrices. -/
theorem C121_write_tests {pl : Plat} {fs fs' : FS} {o o' o2 : Obj F64} {path target : Str}
    {fl fl' : Flags} (opened : construct pl fs (some path) fl = .ok o)
    (exported : exportObj pl fs o (some target) true = (fs', o', none))
    (kind : kindOfName target = kindOfName path)
    (reopened : construct pl fs' (some target) fl' = .ok o2) :
    writeTests o2.mesh o'.mesh = .ok true ↔ ∀ x ∈ o.mesh.keptFloats, x.isNaN = false := by
  have named : target ≠ [] := by rintro rfl; cases reopened
  rw [C121_reload_exact opened exported named kind] at reopened
  cases reopened
  obtain ⟨-, -, file, -, hl⟩ := construct_loaded opened
  obtain ⟨hw, hk⟩ := C06_loaded_wf pl _ file o.mesh hl
  obtain ⟨-, -, -, hb⟩ := C18_one_file exported
  simp only [if_true] at hb
  exact writeTests_self hw hb

/-- The sample file, opened and exported with another name: the hypotheses hold and the tests pass. -/
example : (construct (F := F64) win boxFS (some "box.staticmesh".toList) ⟨false, false, false⟩).toOption.map (fun o =>
      match exportObj win boxFS o (some "./out.staticmesh".toList) true with
      | (fs', o', e) => (decide (e = none), (construct (F := F64) win fs' (some "./out.staticmesh".toList)
          ⟨false, false, false⟩).toOption.map fun o2 => decide (writeTests o2.mesh o'.mesh = .ok true))) =
      some (true, some true) ∧
    kindOfName "./out.staticmesh".toList = kindOfName "box.staticmesh".toList := by
  decide +kernel

/-- What `test_visiblemesh_read.py` asserts of the sample file, lines 15-150. -/
example : (load (F := F64) win staticKind evilBox).toOption.map (fun m => decide (
    m.head = ⟨0, 11, 0, 0, 0⟩ ∧ m.u1 = 0 ∧ m.geomnum = 1 ∧ m.geoms.map Geom.lodnum = [1] ∧
    m.vertattribnum = 10 ∧ m.vattrs = [⟨0, 0, 2, 0⟩, ⟨0, 12, 2, 3⟩, ⟨0, 24, 4, 2⟩, ⟨0, 28, 1, 5⟩,
      ⟨0, 36, 1, 261⟩, ⟨0, 44, 1, 517⟩, ⟨0, 52, 1, 773⟩, ⟨0, 60, 1, 1029⟩, ⟨0, 68, 2, 6⟩, ⟨255, 0, 17, 0⟩] ∧
    m.vertformat = 4 ∧ m.vertstride = 80 ∧ m.vertnum = 25 ∧
    m.vertices.take 6 = [F64.ofRat false (1/2), flt 0, F64.ofRat false (1/2), (flt 0), (flt 1).negate, flt 0] ∧
    m.indexnum = 36 ∧ m.index.elems.take 6 = [22, 23, 20, 20, 21, 22] ∧ m.u2 = 8)) = some true := by
  decide +kernel

/-- Lines 119-150: bounds, node matrix, numbers of the material. -/
example : (load (F := F64) win staticKind evilBox).toOption.map (fun m => decide (
    m.geoms.flatMap (fun g => g.lods.flatMap Lod.nodeFloats) =
      [(F64.ofRat false (1/2)).negate, flt 0, (F64.ofRat false (1/2)).negate, F64.ofRat false (1/2), flt 1,
        F64.ofRat false (1/2),
        flt 1, flt 0, flt 0, flt 0, flt 0, flt 1, flt 0, flt 0, flt 0, flt 0, flt 1, flt 0, flt 0, flt 0, flt 0,
        flt 1] ∧
    m.mats.map (fun a => [a.mapnum, a.vstart, a.istart, a.inum, a.vnum, a.u4, a.u5]) =
      [[2, 0, 0, 36, 25, 8064, 65535]] ∧ m.mats.map Mat.alphamode = [some 0])) = some true := by
  decide +kernel

/-! ## C122: test_can_translate_staticmesh -/

/-- A mesh whose materials tile the vertices, with one position attribute of three floats, translated and
exported: the assertions of the test hold exactly if adding the offset and subtracting it again gives back
each component of each position. -/
theorem C122_translate_test {m m1 m2 : Mesh F64} {vs o : Nat} {p : VAttr} {d0 d1 d2 : F64}
    (tiled : TiledVerts vs m) (first : FirstPosition m.vattrs p) (pos : PositionAt vs o m p)
    (three : p.vartype = 2) (known : AttrsKnown m)
    (moved : translate m [d0, d1, d2] = (m1, none)) (updated : updateBoundaries m1 = (m2, none)) :
    translateTest F64.feq m.vertices m2 [d0, d1, d2] = .ok true ↔
      ∀ a ∈ m.mats, ∀ x, PosOf vs o m a x →
        NumEq (F64.sub (F64.add x.x d0) d0) x.x ∧ NumEq (F64.sub (F64.add x.y d1) d1) x.y ∧
        NumEq (F64.sub (F64.add x.z d2) d2) x.z :=
  translateTest_moved tiled first pos three known moved updated

/-- With the offset of the test, (0.0, 0.0, 1.5), on a mesh from a file: the test passes if no position
has a NaN and each `z` is zero, infinite, or of a magnitude from `2^-28` to `2^51`. -/
theorem C122_test_passes {pl : Plat} {k : Kind} {file : Bytes} {m m1 m2 : Mesh F64} {vs o : Nat} {p : VAttr}
    (loaded : load pl k file = .ok m) (tiled : TiledVerts vs m) (first : FirstPosition m.vattrs p)
    (pos : PositionAt vs o m p) (three : p.vartype = 2) (known : AttrsKnown m)
    (moved : translate m [F64.zero, F64.zero, F64.ofRat false (3 / 2)] = (m1, none))
    (updated : updateBoundaries m1 = (m2, none))
    (noNaN : ∀ a ∈ m.mats, ∀ x, PosOf vs o m a x → x.x.isNaN = false ∧ x.y.isNaN = false ∧ x.z.isNaN = false)
    (range : ∀ a ∈ m.mats, ∀ x, PosOf vs o m a x → x.z.isFin = true → x.z.value ≠ 0 →
      (2 : ℚ) ^ (-28 : ℤ) ≤ |x.z.value| ∧ |x.z.value| ≤ 2 ^ 51) :
    translateTest F64.feq m.vertices m2 [F64.zero, F64.zero, F64.ofRat false (3 / 2)] = .ok true := by
  rw [C122_translate_test tiled first pos three known moved updated]
  intro a ha x hx
  obtain ⟨n1, n2, n3⟩ := noNaN a ha x hx
  refine ⟨add_sub_zero n1, add_sub_zero n2, ?_⟩
  obtain ⟨t1, t2⟩ := threeHalves_value
  change NumEq (F64.sub (F64.add x.z threeHalves) threeHalves) x.z
  rcases not_nan_cases n3 with hf | hi
  · by_cases h0 : x.z.value = 0
    · exact add_sub_exact hf t1 t1 (by rw [h0, zero_add])
    · obtain ⟨h1, h2⟩ := range a ha x hx hf h0
      have hin : x.z ∈ m.floats := by
        obtain ⟨v, -, hv⟩ := hx
        refine List.mem_append_left _ (List.mem_append_left _ ?_)
        unfold vec3At at hv
        split at hv
        · cases hv
          exact List.mem_of_getElem? ‹m.vertices[_ + 2]? = some _›
        · cases hv
      exact add_sub_threeHalves (loaded_floats loaded _ hin) hf h1 h2
  · exact add_sub_inf hi t1

/-- The sample with bounds: loaded, translated by the offset of the test, exported. -/
example : load win staticKind (exportMesh win plainBox).bytes = .ok plainBox ∧ TiledVerts 8 plainBox ∧
    FirstPosition plainBox.vattrs ⟨0, 0, 2, 0⟩ ∧ PositionAt 8 0 plainBox ⟨0, 0, 2, 0⟩ ∧ AttrsKnown plainBox ∧
    (∀ x ∈ plainBox.vertices, x.isNaN = false ∧ (x.value ≠ 0 → 1 ≤ |x.value| ∧ |x.value| ≤ 23)) ∧
    (match translate plainBox [F64.zero, F64.zero, F64.ofRat false (3 / 2)] with
      | (m1, e) => match updateBoundaries m1 with
        | (m2, e') => decide (e = none ∧ e' = none ∧ m2.vertices ≠ plainBox.vertices ∧
            translateTest F64.feq plainBox.vertices m2 [F64.zero, F64.zero, F64.ofRat false (3 / 2)] =
              .ok true)) = true :=
  ⟨by decide +kernel, plainBox_orderly.verts, ⟨[], _, rfl, by decide, by decide⟩,
    ⟨⟨[], _, rfl, by decide, by decide⟩, show StartsAt 4 _ _ by decide, Or.inl rfl, by decide⟩,
    boxed_known (flt 0) [], by decide +kernel, by decide +kernel⟩

/-- Not for all meshes: with `z` = `2^-60`, which a file can hold, the test fails, although the mesh is
translated as it should be. -/
theorem C122_small_z_fails : ∃ (m m1 m2 : Mesh F64), (∀ x ∈ m.vertices, rnd32 x = x ∧ x.isFin = true) ∧
    TiledVerts 8 m ∧ translate m [F64.zero, F64.zero, F64.ofRat false (3 / 2)] = (m1, none) ∧
    updateBoundaries m1 = (m2, none) ∧
    translateTest F64.feq m.vertices m2 [F64.zero, F64.zero, F64.ofRat false (3 / 2)] = .ok false :=
  let m := rotatable (flt 0) ([flt 0, flt 0, F64.ofRat false (1 / 2 ^ 60)] ++ List.replicate 13 (flt 0))
  ⟨m, (translate m [F64.zero, F64.zero, F64.ofRat false (3 / 2)]).1,
    (updateBoundaries (translate m [F64.zero, F64.zero, F64.ofRat false (3 / 2)]).1).1,
    by decide +kernel, rotatable_tiled _ _ rfl, Prod.ext rfl (by decide +kernel), Prod.ext rfl (by decide +kernel),
    by decide +kernel⟩

/-! ## C123: test_can_merge_staticmesh and test_edit_order_mesh_data_updated -/

/-- After every merge that succeeds, and the export, the assertions of the merge test hold. -/
theorem C123_merge_test {F : Type} [FArith F] {m o m1 m2 : Mesh F} (merged : merge m o = (m1, .ok .done))
    (updated : updateBoundaries m1 = (m2, none)) : mergeTest m2 o m = .ok true := by
  refine mergeTest_of fun i j k a' ha => ?_
  obtain ⟨a1, ha1, hb⟩ := update_matAt (m := m1) (by rw [updated]) ha
  obtain ⟨a, b, h1, h2, h3⟩ := merge_counts merged i j k a1 ha1
  refine ⟨a, b, h1, h2, ?_⟩
  unfold CountsAdd at *
  rw [hb.fields]
  exact h3

/-- And merging two objects of the same file is never refused: it succeeds or raises. -/
theorem C123_same_file {F : Type} (m : Mesh F) : (merge m m).2 ≠ .ok .notImplemented := by
  have hc : canMerge m m = .ok true := by
    rw [canMerge_true]
    exact ⟨List.forall₂_same.2 fun g _ => List.forall₂_same.2 fun l _ => List.forall₂_same.2 fun a _ =>
      ⟨rfl, rfl, rfl, rfl⟩, rfl⟩
  unfold merge
  rw [hc]
  simp only
  rcases trav2 (mergeGeom m m) ⟨[], [], 0, 0, 0, 0⟩ m.geoms m.geoms with ⟨s, gs, _ | e⟩
  · simp only
    unfold mergeFinish
    split <;> simp
  · simp

/-- The sample merged with another object of the same file; before the merge the assertions are false. -/
example : (merge plainBox plainBox).2 = .ok .done ∧
    (updateBoundaries (merge plainBox plainBox).1).2 = none ∧
    (merge plainBox plainBox).1.mats.map Mat.vnum = [2, 4] ∧
    mergeTest (updateBoundaries (merge plainBox plainBox).1).1 plainBox plainBox = .ok true ∧
    mergeTest plainBox plainBox plainBox = .ok false := by decide +kernel

/-- A mesh whose materials tile both arrays, reordered so that geom 0 stays and geom 2 becomes geom 1:
the assertions of the order test hold, if each lod of geom 0 has one material and geom 2 has three lods
with materials. -/
theorem C123_order_test {F : Type} [DecidableEq F] {vs : Nat} {m : Mesh F} {ix : List Int} {order : List Int}
    {js : List Nat} {g0 g2 : Geom F} (tiled : TiledVerts vs m) (index : TiledIndex m)
    (many : m.index = .many ix) (bound : (m.mats.map Mat.vnum).sum ≤ 2 ^ 53)
    (perm : Permutes m.geoms.length order js) (j0 : js[0]? = some 0) (j1 : js[1]? = some 2)
    (geom0 : m.geoms[0]? = some g0) (geom2 : m.geoms[2]? = some g2)
    (lods0 : g0.lods ≠ []) (single : ∀ l ∈ g0.lods, l.materials.length = 1)
    (lods2 : 3 ≤ g2.lods.length) (mats2 : ∀ l ∈ g2.lods.take 3, l.materials ≠ []) :
    ∃ m', changeGeomsOrder m order = (m', none) ∧ orderTest m m' = .ok true :=
  orderTest_passes tiled index many bound perm j0 j1 geom0 geom2 lods0 single lods2 mats2

/-- Three geoms, of one, one and three lods. -/
def lodded (rs : List (Int × Int × Int × Int)) : Mesh F64 :=
  { meshOf (flt 0) [⟨0, 0, 1, 0⟩] 8 6 [rs, [(2, 1, 2, 1)]] ((List.range 12).map flt) [0, 1, 0, 0, 1, 0] with
    geoms := [geomOf (flt 0) rs, geomOf (flt 0) [(2, 1, 2, 1)],
      ⟨3, (geomOf (flt 0) [(3, 1, 3, 1)]).lods ++ (geomOf (flt 0) [(4, 1, 4, 1)]).lods ++
        (geomOf (flt 0) [(5, 1, 5, 1)]).lods⟩] }

theorem lodded_verts : TiledVerts 2 (lodded [(0, 2, 0, 2)]) where
  pos := by decide
  size := ⟨[2], rfl, rfl⟩
  nonneg := by decide
  start := starts_of rfl
  total := rfl

theorem lodded_index : TiledIndex (lodded [(0, 2, 0, 2)]) where
  nonneg := by decide
  start := starts_of rfl
  total := rfl

theorem second_last_order : Permutes 3 [0, 2, 1] [0, 2, 1] where
  names := by repeat' constructor
  perm := by decide

example : TiledVerts 2 (lodded [(0, 2, 0, 2)]) ∧ TiledIndex (lodded [(0, 2, 0, 2)]) ∧
    Permutes 3 [0, 2, 1] [0, 2, 1] ∧
    (changeGeomsOrder (lodded [(0, 2, 0, 2)]) [0, 2, 1]).1.vertices =
      [0, 1, 2, 3, 6, 7, 8, 9, 10, 11, 4, 5].map flt ∧
    orderTest (lodded [(0, 2, 0, 2)]) (changeGeomsOrder (lodded [(0, 2, 0, 2)]) [0, 2, 1]).1 = .ok true ∧
    orderTest (lodded [(0, 2, 0, 2)]) (lodded [(0, 2, 0, 2)]) = .error .indexError :=
  ⟨lodded_verts, lodded_index, second_last_order, by decide +kernel, by decide +kernel, by decide +kernel⟩

/-- With two materials in the lod of geom 0 the test fails, although the order is changed as it should be
(C29): it counts the first material of each lod only. -/
theorem C123_two_materials_fail :
    (changeGeomsOrder (lodded [(0, 1, 0, 1), (1, 1, 1, 1)]) [0, 2, 1]).2 = none ∧
    (changeGeomsOrder (lodded [(0, 1, 0, 1), (1, 1, 1, 1)]) [0, 2, 1]).1.vertices =
      [0, 1, 2, 3, 6, 7, 8, 9, 10, 11, 4, 5].map flt ∧
    orderTest (lodded [(0, 1, 0, 1), (1, 1, 1, 1)])
      (changeGeomsOrder (lodded [(0, 1, 0, 1), (1, 1, 1, 1)]) [0, 2, 1]).1 = .ok false := by
  decide +kernel

end Bf2
