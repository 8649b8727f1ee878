import Verif.OldChainLemmas
import Verif.Props.OldFailed
import Verif.Props.OldBox
import Verif.Props.OldSize

/-! # C174: merging many meshes in a row with the deprecated module -/

namespace Bf2

section
variable {F : Type} [FArith F] [LawfulLt F]

/-- **C174.** The loop raises nothing, whatever the indices, and leaves a mesh in order, of the format,
the counts, the names and the nodes or bones of the first; its vertices and its indices are as many as
those of all meshes together. -/
theorem C174_succeeds {vs : Nat} {m : OldMesh F} {os : List (OldMesh F)} (able : OldChainable vs m os) :
    ∃ m', oldMergeEach m os = (m', none) ∧ OldOrderly vs m' ∧ OldSameFormat m m' ∧
      m'.geomnum = m.geomnum ∧ GeomsStay m m' ∧ m'.mats.length = m.mats.length ∧
      m'.vertnum = ((m :: os).map OldMesh.vertnum).sum ∧
      m'.indexnum = ((m :: os).map OldMesh.indexnum).sum := by
  obtain ⟨m', h1, h⟩ := oldChain_ok able
  exact ⟨m', h1, h.order, h.format, h.geomnum, h.geoms, h.geoms.counts.mats_length.symm, h.vertnum, h.indexnum⟩

/-- **C174.** Every material has the vertices of the materials at its place of all meshes, in order, and
their indices, in order, those of each mesh moved up by the vertices of all meshes before it. But for
the ranges and the box it is the material of the first mesh. -/
theorem C174_stacked {vs : Nat} {m : OldMesh F} {os : List (OldMesh F)} (able : OldChainable vs m os)
    {i : Nat} {a : Mat F} (ha : m.mats[i]? = some a) :
    ∃ a', (oldMergeEach m os).1.mats[i]? = some a' ∧
      a' = { a with
        vnum := oldColumnVerts (oldColumn i (m :: os))
        inum := ((oldColumn i (m :: os)).map fun p => p.2.inum).sum
        vstart := a'.vstart, istart := a'.istart, mmin := a'.mmin, mmax := a'.mmax } ∧
      (oldMergeEach m os).1.vdata vs a' = (oldColumn i (m :: os)).flatMap (fun p => p.1.vdata vs p.2) ∧
      OldStacked (oldColumn i (m :: os)) ((oldMergeEach m os).1.idata a') := by
  obtain ⟨m', h1, h⟩ := oldChain_ok able
  rw [h1]
  obtain ⟨a', h2, h3, h4, h5⟩ := h.mats i a ha
  refine ⟨a', h2, h3, h4, ?_⟩
  rw [h5]
  exact oldStack_stacked _

/-- **C174.** Every triangle corner is kept: if the indices of each material name vertices of their own
material, those of the result name, in order, the vertices that the meshes one after the other
named. -/
theorem C174_corners {vs : Nat} {m : OldMesh F} {os : List (OldMesh F)} (able : OldChainable vs m os)
    {i : Nat} {a' : Mat F} (ha : (oldMergeEach m os).1.mats[i]? = some a')
    (own : ∀ p ∈ oldColumn i (m :: os), ∀ v ∈ p.1.idata p.2, 0 ≤ v ∧ v < p.2.vnum) :
    ((oldMergeEach m os).1.idata a').map (corner vs ((oldMergeEach m os).1.vdata vs a')) =
      (oldColumn i (m :: os)).flatMap fun p => (p.1.idata p.2).map (corner vs (p.1.vdata vs p.2)) := by
  obtain ⟨m', h1, -, -, -, -, hl, -⟩ := C174_succeeds able
  have hlt : i < m.mats.length := by
    rw [h1] at ha
    rw [← hl]
    exact (List.getElem?_eq_some_iff.1 ha).1
  obtain ⟨a, h2⟩ := getElem?_lt rfl (l := m.mats) (i := i) hlt
  obtain ⟨a1, h3, -, h4, h5⟩ := C174_stacked able h2
  rw [ha] at h3
  cases h3
  rw [h5.eq, h4]
  refine oldCorners_stack _ 0 [] (by omega) (by simp) (fun p hp => ?_) own
  obtain ⟨hp1, hp2⟩ := oldColumn_mem hp
  refine ⟨?_, List.mem_of_getElem? hp2⟩
  rcases List.mem_cons.1 hp1 with h | h
  · rw [h]; exact able.first
  · exact able.others _ h

/-- **C174.** What was merged can be saved exactly if the counts of all meshes together fit the fields
and no index, moved up by the vertices of all the materials below it, exceeds 65535. -/
theorem C174_save_iff [FCodec F] {vs : Nat} (pl : Plat) {m : OldMesh F} {os : List (OldMesh F)}
    (able : OldChainable vs m os) (first : OldInRange pl m)
    (others : ∀ o ∈ os, ∀ v ∈ o.index, 0 ≤ v) :
    (oldSave pl (oldMergeEach m os).1).err = none ↔
      IsLong pl ((m :: os).map OldMesh.vertnum).sum ∧ IsLong pl ((m :: os).map OldMesh.indexnum).sum ∧
      ¬ OldChainOverflows (m :: os) := by
  obtain ⟨m', h1, h⟩ := oldChain_ok able
  rw [h1, C103_save_iff pl h.order.wf, h.range able first others]
  rfl

/-- **C174.** The loop stops at the first mesh that does not fit and keeps what it has merged before. -/
theorem C174_stops {vs : Nat} {m : OldMesh F} {os rest : List (OldMesh F)} {o : OldMesh F}
    (able : OldChainable vs m os)
    (unfit : (m.kind.isStatic = false ∧ o.kind.isStatic = false) ∨ m.vattrs ≠ o.vattrs ∨
      m.geoms.length ≠ o.geoms.length) :
    oldMergeEach m (os ++ o :: rest) = ((oldMergeEach m os).1, some .notImplementedError) := by
  obtain ⟨m', h1, h⟩ := oldChain_ok able
  rw [oldMergeEach_append, h1]
  dsimp only
  rw [oldMergeEach, C93_refused m' o (by
    rw [h.format.kind, h.format.vattrs, ← List.Forall₂.length_eq h.geoms]
    exact unfit)]

omit [LawfulLt F] in
/-- **C174.** At a merge that raises the loop stops with its exception and leaves the mesh as that merge left it. -/
theorem C174_raises {m m' : OldMesh F} {os rest : List (OldMesh F)} {o : OldMesh F} {e : Err}
    (before : oldMergeEach m os = (m', none)) (raises : (oldMerge m' o).2 = some e) :
    oldMergeEach m (os ++ o :: rest) = ((oldMerge m' o).1, some e) := by
  obtain ⟨n, h⟩ : ∃ n, oldMerge m' o = (n, some e) := ⟨_, Prod.ext rfl raises⟩
  rw [oldMergeEach_append, before]
  dsimp only
  rw [oldMergeEach, h]

/-- **C174.** The file grows by four bytes for every float and two for every index merged. -/
theorem C174_size {vs : Nat} (pl : Plat) {m : OldMesh F} {os : List (OldMesh F)}
    (able : OldChainable vs m os) :
    (oldMergeEach m os).1.size pl = m.size pl + 4 * (os.map fun o => o.vertices.length).sum +
      2 * (os.map fun o => o.index.length).sum := by
  induction os generalizing m with
  | nil => rfl
  | cons o os ih =>
    have hs := able.small
    rw [List.map_cons, List.sum_cons] at hs
    have ho := able.others o (by simp)
    have hc := able.counts o (by simp)
    obtain ⟨m1, h1, st⟩ := oldMerge_step able.first ho (able.attrs o (by simp)) (able.static o (by simp)) hc
      (by omega)
    have hlen : m1.vertices.length = m.vertices.length + o.vertices.length := by
      have e1 := st.order.floats
      have e2 := able.first.floats
      have e3 := ho.floats
      rw [st.vertnum, Int.add_mul] at e1
      omega
    obtain ⟨m2, h2, e⟩ := C172_merge pl able.first ho (able.attrs o (by simp)) (able.static o (by simp)) hc
      (by omega)
    rw [h1] at h2
    cases h2
    have := ih (m := m1) ⟨st.order, fun x hx => able.others x (by simp [hx]),
      fun x hx => by rw [st.format.vattrs]; exact able.attrs x (by simp [hx]),
      fun x hx => by rw [st.format.kind]; exact able.static x (by simp [hx]),
      fun x hx => st.geoms.counts.symm.trans (able.counts x (by simp [hx])), by omega⟩
    rw [oldMergeEach, h1]
    dsimp only
    rw [this, e, List.map_cons, List.sum_cons, List.map_cons, List.sum_cons]
    omega

end

/-! ## Cases -/

/-- Two boxes to merge into a third, the last with an index changed. -/
def chainBoxes (v : Int) : List (OldMesh F64) := [mockBox, indexBox v]

theorem chainBoxes_able (v : Int) : OldChainable 12 staticBox (chainBoxes v) where
  first := staticBox_orderly
  others := by
    intro o ho
    simp only [chainBoxes, List.mem_cons, List.not_mem_nil, or_false] at ho
    rcases ho with rfl | rfl
    · exact C105_box_order
    · exact indexBox_orderly v
  attrs := by
    intro o ho
    simp only [chainBoxes, List.mem_cons, List.not_mem_nil, or_false] at ho
    rcases ho with rfl | rfl <;> rfl
  static := fun _ _ => .inl rfl
  counts := by
    intro o ho
    simp only [chainBoxes, List.mem_cons, List.not_mem_nil, or_false] at ho
    rcases ho with rfl | rfl <;> exact .cons (.cons rfl .nil) .nil
  small := by
    have h : ((chainBoxes v).map fun o => o.vertices.length).sum = ((chainBoxes 0).map fun o => o.vertices.length).sum :=
      rfl
    rw [h]
    decide +kernel

/-- What the merges leave, as numbers. -/
def chainShow (v : Int) : Option Err × List (Int × Int) × Option Int × Option Err :=
  match oldMergeEach staticBox (chainBoxes v) with
  | (m, e) => (e, m.mats.map (fun a => (a.vnum, a.inum)), m.index[72]?, (oldSave win m).err)

example : chainShow 5 = (none, [(72, 108)], some 53, none) := by decide +kernel
example : chainShow 65487 = (none, [(72, 108)], some 65535, none) := by decide +kernel
example : chainShow 65488 = (none, [(72, 108)], some 65536, some .structError) := by decide +kernel

/-- The hypotheses on ranges and corners hold of the sample, and a last mesh without geoms does not
fit. -/
example : (∀ o ∈ chainBoxes 5, ∀ v ∈ o.index, 0 ≤ v) ∧ (oldSave win staticBox).err = none ∧
    (∀ p ∈ oldColumn 0 (staticBox :: chainBoxes 5), ∀ v ∈ p.1.idata p.2, 0 ≤ v ∧ v < p.2.vnum) ∧
    staticBox.geoms.length ≠ { staticBox with geoms := [] }.geoms.length :=
  ⟨by decide +kernel, by decide +kernel, by decide +kernel, by decide +kernel⟩

/-- The second of three meshes lacks a material: the first material has the vertex count of the merge begun, but there are
no more vertices than before it. -/
example : (oldMergeEach joinA.old ([(joinB 0).old] ++ joinShort.old :: [joinA.old])) =
      ((oldMerge (oldMergeEach joinA.old [(joinB 0).old]).1 joinShort.old).1, some .indexError) ∧
    (oldMergeEach joinA.old [(joinB 0).old]).1.mats.map (·.vnum) = [3, 2] ∧
    (oldMerge (oldMergeEach joinA.old [(joinB 0).old]).1 joinShort.old).1.mats.map (·.vnum) = [4, 2] ∧
    (oldMerge (oldMergeEach joinA.old [(joinB 0).old]).1 joinShort.old).1.vertnum = 5 :=
  ⟨C174_raises (Prod.ext rfl (by decide +kernel)) (by decide +kernel), by decide +kernel, by decide +kernel,
    by decide +kernel⟩

end Bf2
