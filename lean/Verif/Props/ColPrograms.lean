import Verif.ColProgramsLemmas
import Verif.Props.ColEdit
import Verif.Props.ColFormat

/-!
# `deprecated/mesh_merge.py` (C129)
-/

namespace Bf2

/-! ## As it is written -/

/-- **C129.** `main()` of `mesh_merge.py` never returns and never writes: if the mesh loads, it raises
`RuntimeError`. -/
theorem C129_as_written {F : Type} [FCodec F] (pl : Plat) (fs : FS) (cwd : Str) :
    (meshMerge F pl fs cwd).1 = fs ∧ (meshMerge F pl fs cwd).2 ≠ none ∧
    ∀ root m, findModRoot cwd = .ok root →
      constructCol (F := F) pl fs (some (dividerPath root)) = .ok m →
      (meshMerge F pl fs cwd).2 = some .runtimeError := by
  unfold meshMerge
  rcases hr : findModRoot cwd with e | root
  · exact ⟨rfl, by simp, fun _ _ h => by cases h⟩
  · dsimp only
    rcases hc : constructCol (F := F) pl fs (some (dividerPath root)) with e | m
    · refine ⟨rfl, by simp, fun root' m h h' => ?_⟩
      cases h
      rw [hc] at h'
      cases h'
    · exact ⟨rfl, by simp, fun _ _ _ _ => rfl⟩

/-- Run in `/m/mods/pr`, with the small collision mesh in its place: `RuntimeError`; anywhere else
`ValueError`. -/
example :
    let fs : FS := ⟨fun l => if l = ["m".toList, "mods".toList, "pr".toList, "objects".toList,
        "staticobjects".toList, "pr".toList, "citybuildings".toList, "pavement".toList, "divider".toList,
        "24m_1".toList, "Meshes".toList, "24m_1.collisionmesh".toList] then
          some (.file (layout win triCol.items)) else if l.length < 12 then some .dir else none, []⟩
    (meshMerge F64 win fs "/m/mods/pr".toList).2 = some .runtimeError ∧
    (meshMerge F64 win fs "/m".toList).2 = some .valueError := by
  decide +kernel

/-! ## As it is meant -/

section
variable {F : Type} [FArith F] [FDiv F] [LawfulLt F]
variable {diff : Vec3 F} {h : Heap} {a b : ColMesh F Nat} {m : ColMesh F ColFace}

omit [FDiv F] in
theorem doubled_lod (t : TwoCopies h a b m) {h' : Heap} {c : ColMesh F Nat}
    (hm : colMerge h a (colTranslate diff b) = (h', c, none)) (off : Vec3 F) {i j k : Nat}
    {x : ColLod F ColFace} (hx : m.lodAt i j k = some x) :
    ∃ z0 z, c.lodAt i j k = some z0 ∧ ((colTranslate off c).view h').lodAt i j k = some z ∧
      z.min = z0.min ∧ z.max = z0.max ∧ Doubled diff off x z ∧
      Extended x.min x.max (x.vertices ++ x.vertices.map (movedVec diff)) z.min z.max ∧
      Extended x.bmin x.bmax (x.vertices ++ x.vertices.map (movedVec diff)) z.bmin z.bmax := by
  obtain ⟨xa, xb, ha, rfl, hb, e⟩ := t.lods hx
  have hb' : (colTranslate diff b).lodAt i j k =
      some { xb with vertices := xb.vertices.map fun v => v.plus diff } := by
    rw [colTranslate_lodAt, hb]; rfl
  obtain ⟨-, hl⟩ := C65_merge hm
  obtain ⟨x', z0, hx', hz, J, E1, E2⟩ := (hl i j k).2 _ hb'
  rw [ha] at hx'
  cases hx'
  obtain ⟨z', hz', hf⟩ := (C65_faces_seen hm (by rw [colTranslate_allFaces]; exact t.once)
    (fun x hx => by rw [colTranslate_allFaces]; exact t.apart x hx) i j k).2 _ _ ha hb'
  rw [hz] at hz'
  cases hz'
  have ev : (Vec3.map id : Vec3 F → Vec3 F) = id := rfl
  have ey : (ColY.map id : ColY F → ColY F) = id := rfl
  simp only [ColLod.map, ev, ey, List.map_id, id_eq, ColLod.mk.injEq] at e
  obtain ⟨f1, f2, f3, f4, f5, f6, f7, f8, f9, f10, f11, f12, f13, f14, f15, f16, f17⟩ := e
  have hvs : z0.vertices = xa.vertices ++ xa.vertices.map (movedVec diff) := by
    rw [J.vertices, f5]; rfl
  refine ⟨z0, ColLod.map id h' { z0 with vertices := z0.vertices.map fun v => v.plus off }, hz, ?_, rfl,
    rfl, ?_, ?_, ?_⟩
  · rw [ColMesh.view, map_lodAt, colTranslate_lodAt, hz]; rfl
  · refine ⟨?_, ?_, ?_, ?_, ?_, ?_, ?_, ?_, ?_, ?_, ?_, ?_, ?_⟩ <;>
      simp only [ColLod.map, ev, ey, List.map_id, id_eq]
    · rw [hvs, List.map_append, List.map_map]; rfl
    · rw [hf, f4, ← f3, List.map_map]; rfl
    · rw [J.vertids, f6]
    · rw [J.ydata, f13]
    · rw [J.zdata, f15]
    · rw [J.adata, f17]
    · rw [J.vertnum, f4]; ring
    · rw [J.facenum, f2]; ring
    · rw [J.ynum, f12]; ring
    · rw [J.znum, f14]; ring
    · rw [J.anum, f16]; ring
    · rw [J.coltype]
    · rw [J.u7]
  · rw [hvs] at E1
    simpa only [ColLod.map, ev, List.map_id, id_eq] using E1
  · rw [hvs] at E2
    simpa only [ColLod.map, ev, List.map_id, id_eq] using E2

/-- **C129.** Without the `raise`: the result has the same geoms, subgeoms and lods; every lod is the one
loaded beside its copy moved by `diff`, the whole moved so that the middle of the stored bounds of the
first lod goes to the origin; the stored bounds are those of before that move. -/
theorem C129_meant (t : TwoCopies h a b m) (diff : Vec3 F) {l0 : ColLod F ColFace}
    (h0 : m.lodAt 0 0 0 = some l0) :
    ∃ h' c, joinDividers diff h a b = (h', c, none) ∧ (c.view h').skeleton = m.skeleton ∧
      ∃ z0, (c.view h').lodAt 0 0 0 = some z0 ∧ ∀ i j k x, m.lodAt i j k = some x →
        ∃ z, (c.view h').lodAt i j k = some z ∧
          Doubled diff ⟨FDiv.neg (FArith.half (FArith.add z0.min.x z0.max.x)),
            FDiv.neg (FArith.half (FArith.add z0.min.y z0.max.y)),
            FDiv.neg (FArith.half (FArith.add z0.min.z z0.max.z))⟩ x z ∧
          Extended x.min x.max (x.vertices ++ x.vertices.map (movedVec diff)) z.min z.max ∧
          Extended x.bmin x.bmax (x.vertices ++ x.vertices.map (movedVec diff)) z.bmin z.bmax := by
  obtain ⟨h', c, hm⟩ := t.merges diff
  obtain ⟨y, -, hy, -⟩ := doubled_lod t hm diff h0
  refine ⟨h', _, joinDividers_some diff h a b hm hy, ?_, ?_⟩
  · rw [ColMesh.view, map_skeleton, colTranslate_skeleton, colMerge_skeleton hm, t.skeletons.1]
  · obtain ⟨y', z0, hy', hz, e1, e2, -⟩ := doubled_lod t hm (centerOffset y).neg h0
    rw [hy] at hy'
    cases hy'
    refine ⟨z0, hz, fun i j k x hx => ?_⟩
    obtain ⟨-, z, -, hz, -, -, D, E1, E2⟩ := doubled_lod t hm (centerOffset y).neg hx
    refine ⟨z, hz, ?_, E1, E2⟩
    rw [e1, e2]
    exact D

end

/-- The small mesh with its faces at 0 and 1, and its copy with them at 2 and 3. -/
def triAt (i j : Nat) : ColMesh F64 Nat :=
  let l := triLod.map unpackF fun _ => i
  ⟨0, 10, 1, [⟨1, [⟨2, [l, { l with coltype := 2, faces := [j] }]⟩]⟩]⟩

theorem triAt_copies : TwoCopies (fun _ => ⟨0, 1, 2, 0, some 7⟩) (triAt 0 1) (triAt 2 3) triCol.obj :=
  ⟨by decide +kernel, by decide +kernel, by decide +kernel, by decide +kernel⟩

/-- The small mesh beside its copy moved by (4, 0, 0): six vertices from -2.5 to 2.5, the second face
between the last three; the stored bounds still 0 .. 5. -/
example :
    let r := joinDividers ⟨flt 4, flt 0, flt 0⟩ (fun _ => ⟨0, 1, 2, 0, some 7⟩) (triAt 0 1) (triAt 2 3)
    r.2.2 = none ∧ ((r.2.1.view r.1).lods.map fun l => (l.faces.map (·.corners), l.vertnum)) =
      [([[0, 1, 2], [3, 4, 5]], 6), ([[0, 1, 2], [3, 4, 5]], 6)] ∧
    ((r.2.1.view r.1).lods.map fun l => (l.vertices.map (·.x), l.min.x, l.max.x)).head? =
      some ([(F64.half (flt 5)).negate, (F64.half (flt 3)).negate, (F64.half (flt 5)).negate,
        F64.half (flt 3), F64.half (flt 5), F64.half (flt 3)], flt 0, flt 5) := by
  decide +kernel

section
variable {F : Type} [FArith F] [FDiv F] [LawfulLt F]
variable {diff : Vec3 F} {h : Heap} {a b : ColMesh F Nat} {m : ColMesh F ColFace}

omit [LawfulLt F] in
/-- **C129.** A mesh without a first lod makes the script raise `IndexError`, after merging. -/
theorem C129_meant_no_lod (t : TwoCopies h a b m) (diff : Vec3 F) (h0 : m.lodAt 0 0 0 = none) :
    (joinDividers diff h a b).2.2 = some .indexError := by
  obtain ⟨h', c, hm⟩ := t.merges diff
  rw [joinDividers_none diff h a b hm]
  have ha : a.lodAt 0 0 0 = none := by
    rw [← t.first, ColMesh.view, map_lodAt] at h0
    simpa using h0
  rcases colMerge_lods hm 0 0 0 with ⟨-, -, e3⟩ | ⟨x, e1, -⟩ | ⟨x, y, z, e1, -⟩
  · exact e3
  · rw [ha] at e1; cases e1
  · rw [ha] at e1; cases e1

/-- An empty mesh (a file without geoms). -/
example : (joinDividers ⟨flt 4, flt 0, flt 0⟩ (fun _ => ⟨0, 1, 2, 0, none⟩) ⟨0, 10, 0, []⟩
    ⟨0, 10, 0, []⟩).2.2 = some .indexError := by decide +kernel

omit [FDiv F] [LawfulLt F] in
/-- **C129.** In a doubled lod, the corners of the second half of the faces are the moved copies of the
corners of the first half. -/
theorem C129_faces_follow {diff off : Vec3 F} {x z : ColLod F ColFace} (D : Doubled diff off x z)
    (hv : (x.vertices.length : Int) = x.vertnum) {n : Nat} {f : ColFace} (hf : x.faces[n]? = some f)
    (hw : f.Within x.vertnum) :
    z.faces[n]? = some f ∧ ∃ f', z.faces[n + x.faces.length]? = some f' ∧ f'.material = f.material ∧
      List.Forall₂ (fun v v' => 0 ≤ v' ∧ ∃ p, x.vertices[v.toNat]? = some p ∧
        z.vertices[v.toNat]? = some (movedVec off p) ∧
        z.vertices[v'.toNat]? = some (movedVec off (movedVec diff p))) f.corners f'.corners := by
  have hn := (List.getElem?_eq_some_iff.1 hf).1
  refine ⟨by rw [D.faces, List.getElem?_append_left hn, hf],
    { f with v1 := f.v1 + x.vertnum, v2 := f.v2 + x.vertnum, v3 := f.v3 + x.vertnum }, ?_, ?_, ?_⟩
  · rw [D.faces, List.getElem?_append_right (by omega), Nat.add_sub_cancel, List.getElem?_map, hf]
    rfl
  · rfl
  · have key : ∀ v : Int, 0 ≤ v ∧ v < x.vertnum → 0 ≤ v + x.vertnum ∧
        ∃ p, x.vertices[v.toNat]? = some p ∧ z.vertices[v.toNat]? = some (movedVec off p) ∧
          z.vertices[(v + x.vertnum).toNat]? = some (movedVec off (movedVec diff p)) := by
      intro v hv'
      have hlt : v.toNat < x.vertices.length := by omega
      refine ⟨by omega, x.vertices[v.toNat], List.getElem?_eq_getElem hlt, ?_, ?_⟩
      · rw [D.vertices, List.getElem?_append_left (by simpa using hlt), List.getElem?_map,
          List.getElem?_eq_getElem hlt]
        rfl
      · rw [D.vertices, List.getElem?_append_right (by simp; omega), List.getElem?_map, List.length_map,
          show (v + x.vertnum).toNat - x.vertices.length = v.toNat by omega,
          List.getElem?_eq_getElem hlt]
        rfl
    obtain ⟨h1, h2, h3⟩ := hw
    exact .cons (key _ h1) (.cons (key _ h2) (.cons (key _ h3) .nil))

/-- **C129.** The counts of the result are consistent if those of the loaded mesh are. -/
theorem C129_counts (t : TwoCopies h a b m) (diff : Vec3 F) (hw : ColWF m) {h' : Heap}
    {c : ColMesh F Nat} (hj : joinDividers diff h a b = (h', c, none)) : ColWF (c.view h') := by
  rcases h0 : m.lodAt 0 0 0 with _ | l0
  · have := C129_meant_no_lod t diff h0
    rw [hj] at this
    cases this
  obtain ⟨h'', c', hj', hs, z0, -, hl⟩ := C129_meant t diff h0
  rw [hj] at hj'
  cases hj'
  rw [colWF_iff] at hw ⊢
  have hver : (c.view h').version = m.version := congrArg (fun s => s.2.1) hs
  rw [hs, hver]
  refine ⟨hw.1, fun l hl' => ?_⟩
  obtain ⟨i, j, k, hl'⟩ := mem_lods_iff.1 hl'
  have hx : ∃ x, m.lodAt i j k = some x := by
    obtain ⟨h1, c1, hm⟩ := t.merges diff
    rcases hx : m.lodAt i j k with _ | x
    · exfalso
      have ha : a.lodAt i j k = none := by
        rw [← t.first, ColMesh.view, map_lodAt] at hx
        simpa using hx
      obtain ⟨y, -, hy, -⟩ := doubled_lod t hm diff h0
      rw [joinDividers_some diff h a b hm hy] at hj
      cases hj
      rw [ColMesh.view, map_lodAt, colTranslate_lodAt] at hl'
      rcases colMerge_lods hm i j k with ⟨-, -, e3⟩ | ⟨x, e1, -⟩ | ⟨x, y, z, e1, -⟩
      · rw [e3] at hl'; cases hl'
      · rw [ha] at e1; cases e1
      · rw [ha] at e1; cases e1
    · exact ⟨x, rfl⟩
  obtain ⟨x, hx⟩ := hx
  obtain ⟨z, hz, D, -⟩ := hl i j k x hx
  rw [hl'] at hz
  cases hz
  have W := hw.2 x (mem_lods_iff.2 ⟨i, j, k, hx⟩)
  refine ⟨?_, ?_, ?_, ?_, ?_, ?_, ?_⟩
  · rw [D.coltype]; exact W.coltype
  · rw [D.faces, D.facenum, List.length_append, List.length_map, W.faces]; omega
  · rw [D.vertices, D.vertnum, List.length_append, List.length_map, List.length_map, W.vertices]; omega
  · rw [D.vertids, D.vertnum, List.length_append, W.vertids]; omega
  · rw [D.ydata, D.ynum, List.length_append, W.ydata]; omega
  · rw [D.zdata, D.znum, List.length_append, W.zdata]; omega
  · have ha := W.adata
    rw [D.adata, D.anum]
    split at ha
    · next hge =>
      rw [if_pos hge, List.length_append, ha]; omega
    · next hge =>
      rw [if_neg hge, ha.1, ha.2]; exact ⟨rfl, rfl⟩

end

/-- **C129.** Without the `raise`, what a successful run saves: a file that loads, to the doubled mesh
with its floats rounded to binary32 and with the constructor's material in every face; nothing else
changes but new directories. -/
theorem C129_meant_saved {pl : Plat} {fs fs' : FS} {root : Str} {diff : Vec3 F64} {h : Heap}
    {a b : ColMesh F64 Nat} {m : ColMesh F64 ColFace} (t : TwoCopies h a b m) (hw : ColWF m)
    (hr : meshMergeMeant pl fs root diff h a b = (fs', none)) :
    ∃ h' c, joinDividers diff h a b = (h', c, none) ∧
      (∃ loc bytes, Written fs fs' (mergedDividerPath root) loc bytes) ∧
      constructCol pl fs' (some (mergedDividerPath root)) =
        .ok ((c.view h').map (fun x => unpackF (packF x))
          fun f => { f with material := 0, m := some f.material }) := by
  unfold meshMergeMeant at hr
  rcases hj : joinDividers diff h a b with ⟨h', c, _ | e⟩
  · rw [hj] at hr
    dsimp only at hr
    obtain ⟨h1, ⟨loc, h2⟩, h3⟩ := C63_one_file hr
    refine ⟨h', c, rfl, ⟨loc, _, h2⟩, ?_⟩
    rw [h3]
    refine C61_reload_of_save pl _ _ (C129_counts t diff hw hj) ?_
    rw [← h1]
    rfl
  · rw [hj] at hr; cases hr

/-- A run in an empty root directory: the new directories and the file are made, and it loads. -/
example :
    let fs : FS := ⟨fun l => if l = [] then some .dir else none, []⟩
    let r := meshMergeMeant win fs "".toList ⟨flt 4, flt 0, flt 0⟩ (fun _ => ⟨0, 1, 2, 0, some 7⟩)
      (triAt 0 1) (triAt 2 3)
    r.2 = none := by
  decide +kernel

/-- **C129.** With exact arithmetic, if the first lod was loaded with exact bounds, then the box around
the vertices of the saved first lod is centred at the origin; but the stored bounds are those of before
centring, and are right only if nothing had to be moved. -/
theorem C129_centred {h : Heap} {a b : ColMesh ℝ Nat} {m : ColMesh ℝ ColFace} (t : TwoCopies h a b m)
    (diff : Vec3 ℝ) {l0 : ColLod ℝ ColFace} (h0 : m.lodAt 0 0 0 = some l0)
    (hb : SmallestBox l0.min l0.max l0.vertices) :
    ∃ h' c z, joinDividers diff h a b = (h', c, none) ∧ (c.view h').lodAt 0 0 0 = some z ∧
      (∃ r, SmallestBox ⟨-r.x, -r.y, -r.z⟩ r z.vertices) ∧
      (SmallestBox z.min z.max z.vertices ↔ ∀ k, z.min.comp k + z.max.comp k = 0) := by
  obtain ⟨h', c, hj, -, z, hz, hl⟩ := C129_meant t diff h0
  obtain ⟨z', hz', D, E, -⟩ := hl 0 0 0 l0 h0
  rw [hz] at hz'
  cases hz'
  refine ⟨h', c, z, hj, hz, ?_⟩
  have ltf : ∀ x y : ℝ, FArith.lt x y = false ↔ y ≤ x := by
    intro x y
    show decide (x < y) = false ↔ _
    rw [decide_eq_false_iff_not, not_lt]
  set off : Vec3 ℝ := ⟨FDiv.neg (FArith.half (FArith.add z.min.x z.max.x)),
    FDiv.neg (FArith.half (FArith.add z.min.y z.max.y)),
    FDiv.neg (FArith.half (FArith.add z.min.z z.max.z))⟩ with hoff
  have oc : ∀ k, off.comp k = -((z.min.comp k + z.max.comp k) / 2) := by
    intro k; fin_cases k <;> rfl
  have mc : ∀ (d v : Vec3 ℝ) k, (movedVec d v).comp k = v.comp k + d.comp k := by
    intro d v k; fin_cases k <;> rfl
  have hv : z.vertices = (l0.vertices ++ l0.vertices.map (movedVec diff)).map (movedVec off) := by
    rw [D.vertices, List.map_append, List.map_map]; rfl
  set vs := l0.vertices ++ l0.vertices.map (movedVec diff) with hvs
  -- the stored bounds are the box around the vertices before centring
  have hbox : SmallestBox z.min z.max vs := by
    intro k
    refine ⟨fun v hv => ?_, ?_, ?_⟩
    · have := E.covers v hv k
      rw [ltf, ltf] at this
      exact this
    · rcases (E.attained k).1 with e | ⟨v, hv, e⟩
      · obtain ⟨v, hv, e'⟩ := (hb k).2.1
        exact ⟨v, List.mem_append_left _ hv, by rw [e', e]⟩
      · exact ⟨v, hv, e.symm⟩
    · rcases (E.attained k).2 with e | ⟨v, hv, e⟩
      · obtain ⟨v, hv, e'⟩ := (hb k).2.2
        exact ⟨v, List.mem_append_left _ hv, by rw [e', e]⟩
      · exact ⟨v, hv, e.symm⟩
  constructor
  · refine ⟨⟨(z.max.x - z.min.x) / 2, (z.max.y - z.min.y) / 2, (z.max.z - z.min.z) / 2⟩, fun k => ?_⟩
    have r1 : Vec3.comp (⟨(z.max.x - z.min.x) / 2, (z.max.y - z.min.y) / 2,
        (z.max.z - z.min.z) / 2⟩ : Vec3 ℝ) k = (z.max.comp k - z.min.comp k) / 2 := by
      fin_cases k <;> rfl
    have r2 : Vec3.comp (⟨-((z.max.x - z.min.x) / 2), -((z.max.y - z.min.y) / 2),
        -((z.max.z - z.min.z) / 2)⟩ : Vec3 ℝ) k = -((z.max.comp k - z.min.comp k) / 2) := by
      fin_cases k <;> rfl
    rw [r1, r2, hv]
    obtain ⟨b1, ⟨v, hv1, e1⟩, w, hw1, e2⟩ := hbox k
    refine ⟨fun u hu => ?_, ⟨_, List.mem_map_of_mem hv1, ?_⟩, _, List.mem_map_of_mem hw1, ?_⟩
    · obtain ⟨u, hu', rfl⟩ := List.mem_map.1 hu
      have := b1 u hu'
      rw [mc, oc]
      constructor <;> linarith
    · rw [mc, oc, e1]; ring
    · rw [mc, oc, e2]; ring
  · rw [hv]
    constructor
    · intro hs k
      obtain ⟨b1, ⟨v, hv1, e1⟩, w, hw1, e2⟩ := hbox k
      have s1 := ((hs k).1 _ (List.mem_map_of_mem hv1)).1
      have s2 := ((hs k).1 _ (List.mem_map_of_mem hw1)).2
      rw [mc, oc, e1] at s1
      rw [mc, oc, e2] at s2
      linarith
    · intro h0 k
      have hz0 : off.comp k = 0 := by rw [oc, h0 k]; norm_num
      obtain ⟨b1, ⟨v, hv1, e1⟩, w, hw1, e2⟩ := hbox k
      refine ⟨fun u hu => ?_, ⟨_, List.mem_map_of_mem hv1, ?_⟩, _, List.mem_map_of_mem hw1, ?_⟩
      · obtain ⟨u, hu', rfl⟩ := List.mem_map.1 hu
        rw [mc, hz0, add_zero]
        exact b1 u hu'
      · rw [mc, hz0, add_zero, e1]
      · rw [mc, hz0, add_zero, e2]

/-- A lod with one triangle, exact bounds, and two copies of the mesh of it. -/
def flatLod (f : φ) : ColLod ℝ φ :=
  ⟨0, 1, [f], 3, [⟨0, 0, 0⟩, ⟨1, 0, 0⟩, ⟨0, 2, 0⟩], [0, 0, 0], ⟨0, 0, 0⟩, ⟨1, 2, 0⟩, 49, ⟨0, 0, 0⟩,
    ⟨1, 2, 0⟩, 0, [], 0, [], 0, []⟩

example :
    let at' (i : Nat) : ColMesh ℝ Nat := ⟨0, 10, 1, [⟨1, [⟨1, [flatLod i]⟩]⟩]⟩
    let m : ColMesh ℝ ColFace := ⟨0, 10, 1, [⟨1, [⟨1, [flatLod ⟨0, 1, 2, 0, none⟩]⟩]⟩]⟩
    TwoCopies (fun _ => ⟨0, 1, 2, 0, none⟩) (at' 0) (at' 1) m ∧
      m.lodAt 0 0 0 = some (flatLod ⟨0, 1, 2, 0, none⟩) ∧
      SmallestBox (flatLod ⟨0, 1, 2, 0, none⟩ : ColLod ℝ ColFace).min
        (flatLod ⟨0, 1, 2, 0, none⟩ : ColLod ℝ ColFace).max
        (flatLod ⟨0, 1, 2, 0, none⟩ : ColLod ℝ ColFace).vertices := by
  refine ⟨⟨rfl, rfl, by simp [ColMesh.allFaces, ColMesh.lods, flatLod],
    by simp [ColMesh.allFaces, ColMesh.lods, flatLod]⟩, rfl, fun k => ?_⟩
  fin_cases k <;> simp [flatLod, Vec3.comp]

end Bf2
