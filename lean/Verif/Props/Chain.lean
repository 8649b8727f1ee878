import Verif.ChainLemmas
import Verif.Props.Merge
import Verif.Props.MergeOutcome

/-! # C156: merging many meshes in a row -/

namespace Bf2

variable {F : Type}

theorem mergeA_readable : Readable 1 mergeA := ⟨mergeA_inside, _, rfl⟩
theorem mergeB_readable : Readable 1 mergeB := ⟨mergeB_inside, _, rfl⟩
theorem mergeC_readable : Readable 1 mergeC := ⟨mergeC_inside, _, rfl⟩

/-- Four meshes, the second and the third with their materials in another order. -/
def chainOs : List (Mesh Nat) := [mergeB, mergeB, mergeA]

theorem chainOs_readable : ∀ o ∈ chainOs, Readable 1 o := by
  intro o ho
  simp only [chainOs, List.mem_cons, List.not_mem_nil, or_false] at ho
  rcases ho with rfl | rfl | rfl
  · exact mergeB_readable
  · exact mergeB_readable
  · exact mergeA_readable

theorem chainOs_fit : ∀ o ∈ chainOs, Compatible mergeA o := by
  intro o ho
  simp only [chainOs, List.mem_cons, List.not_mem_nil, or_false] at ho
  rcases ho with rfl | rfl | rfl
  · exact mergeAB
  · exact mergeAB
  · exact compatible_refl _

/-- A loop of merges of meshes that fit the first one and can be read raises nothing exactly if no
index, moved up by the vertices of all the materials below it, exceeds 65535; otherwise it raises
`OverflowError`. -/
theorem C156_succeeds_exactly {vs : Nat} {m : Mesh F} {os : List (Mesh F)} (first : Readable vs m)
    (others : ∀ o ∈ os, Readable vs o) (fit : ∀ o ∈ os, Compatible m o) :
    ((mergeEach m os).2 = none ↔ ¬ ChainOverflows (m :: os)) ∧
      ((mergeEach m os).2 = some .overflowError ↔ ChainOverflows (m :: os)) := by
  by_cases h : ChainOverflows (m :: os)
  · have := chain_overflow first others fit h
    simp [this, h]
  · obtain ⟨m', h1, -⟩ := chain_ok first others fit h
    simp [h1, h]

example : (mergeEach mergeA chainOs).2 = none ∧ Readable 1 mergeA ∧
    (∀ o ∈ chainOs, Readable 1 o) ∧ (∀ o ∈ chainOs, Compatible mergeA o) ∧
    (mergeEach mergeA [mergeB, mergeC, mergeB]).2 = some .overflowError :=
  ⟨by decide +kernel, mergeA_readable, chainOs_readable, chainOs_fit, by decide +kernel⟩

/-- After a loop that raised nothing every material has the vertices of the materials at its place
of all meshes, in order, and their indices, in order, those of each mesh moved up by the vertices
of all meshes before it. Header, boxes, nodes and all else of the first mesh are kept. -/
theorem C156_stacked {vs : Nat} {m m' : Mesh F} {os : List (Mesh F)} (first : Readable vs m)
    (others : ∀ o ∈ os, Readable vs o) (fit : ∀ o ∈ os, Compatible m o)
    (ok : mergeEach m os = (m', none)) :
    m' = { m with
      geoms := m'.geoms, vertices := m'.vertices, index := m'.index, vertnum := m'.vertnum,
      indexnum := m'.indexnum } ∧
    m'.geoms.map Geom.shape = m.geoms.map Geom.shape ∧ m'.mats.length = m.mats.length ∧
    ∀ (i : Nat) a, m.mats[i]? = some a → ∃ a', m'.mats[i]? = some a' ∧
      a' = { a with
        vnum := columnVerts (column i (m :: os))
        inum := ((column i (m :: os)).map fun p => p.2.inum).sum
        vstart := a'.vstart, istart := a'.istart } ∧
      vertexData vs m' a' = (column i (m :: os)).flatMap (fun p => vertexData vs p.1 p.2) ∧
      StackedIndex (column i (m :: os)) (indexData m' a') := by
  have hno := (C156_succeeds_exactly first others fit).1.1 (by rw [ok])
  obtain ⟨m1, h1, hC⟩ := chain_ok first others fit hno
  rw [ok] at h1
  simp only [Prod.mk.injEq, and_true] at h1
  subst h1
  refine ⟨hC.rest, hC.shape, hC.length, fun i a ha => ?_⟩
  obtain ⟨a', h2, h3, h4, h5⟩ := hC.mats i a ha
  refine ⟨a', h2, h3, h4, ?_⟩
  rw [h5]
  exact stackFrom_stacked _

example : (mergeEach mergeA chainOs).1.vertices = [7, 3, 4, 3, 4, 7, 8, 9, 1, 2, 1, 2, 8, 9] ∧
    (mergeEach mergeA chainOs).1.index = .many [0, 2, 1, 4, 3, 5, 1, 0, 2, 4, 7, 6] ∧
    (mergeEach mergeA chainOs).1.mats.map Mat.vnum = [6, 8] :=
  ⟨by decide +kernel, by decide +kernel, by decide +kernel⟩

/-- After at least one merge the mesh is in order: its materials tile both arrays and the counts of
the mesh are those of the materials together. -/
theorem C156_tiled {vs : Nat} {m m' : Mesh F} {os : List (Mesh F)} (first : Readable vs m)
    (others : ∀ o ∈ os, Readable vs o) (fit : ∀ o ∈ os, Compatible m o) (some_ : os ≠ [])
    (ok : mergeEach m os = (m', none)) :
    TiledVerts vs m' ∧ TiledIndex m' ∧ m'.vertnum = (m'.mats.map Mat.vnum).sum ∧
      m'.indexnum = (m'.mats.map Mat.inum).sum := by
  have hno := (C156_succeeds_exactly first others fit).1.1 (by rw [ok])
  obtain ⟨m1, h1, hC⟩ := chain_ok first others fit hno
  rw [ok] at h1
  simp only [Prod.mk.injEq, and_true] at h1
  subst h1
  exact hC.tiled some_

example : chainOs ≠ [] ∧ (mergeEach mergeA chainOs).1.vertnum = 14 ∧
    (mergeEach mergeA chainOs).1.indexnum = 12 := ⟨by decide, by decide +kernel, by decide +kernel⟩

/-- Every triangle corner is kept: if the indices of each material name vertices of their own
material, those of the result name, in order, the vertices that the meshes one after the other
named. -/
theorem C156_corners {vs : Nat} {m m' : Mesh F} {os : List (Mesh F)} (first : Readable vs m)
    (others : ∀ o ∈ os, Readable vs o) (fit : ∀ o ∈ os, Compatible m o)
    (ok : mergeEach m os = (m', none)) {i : Nat} {a' : Mat F} (ha : m'.mats[i]? = some a')
    (own : ∀ p ∈ column i (m :: os), ∀ v ∈ indexData p.1 p.2, 0 ≤ v ∧ v < p.2.vnum) :
    (indexData m' a').map (corner vs (vertexData vs m' a')) =
      (column i (m :: os)).flatMap fun p =>
        (indexData p.1 p.2).map (corner vs (vertexData vs p.1 p.2)) := by
  obtain ⟨-, -, hl, hmats⟩ := C156_stacked first others fit ok
  obtain ⟨a, h1⟩ := getElem?_lt rfl (l := m.mats) (i := i) (by
    rw [← hl]; exact (List.getElem?_eq_some_iff.1 ha).1)
  obtain ⟨a1, h2, -, h3, h4⟩ := hmats i a h1
  rw [ha] at h2
  simp only [Option.some.injEq] at h2
  subst h2
  rw [stacked_unique h4 (stackFrom_stacked _), h3]
  refine corners_stack _ 0 [] (by omega) (by simp) (fun p hp => ?_) own
  obtain ⟨hp1, hp2⟩ := column_mem hp
  have : Readable vs p.1 := by
    simp only [List.mem_cons] at hp1
    rcases hp1 with h | h
    · rw [h]; exact first
    · exact others _ h
  exact this.inside.verts _ (List.mem_of_getElem? hp2)

example : (∀ p ∈ column 0 (mergeA :: chainOs), ∀ v ∈ indexData p.1 p.2, 0 ≤ v ∧ v < p.2.vnum) ∧
    (column 1 (mergeA :: chainOs)).length = 4 := ⟨by decide +kernel, by decide +kernel⟩

/-- Merging `n` copies of a mesh into it raises nothing exactly if no index exceeds 65535 when it
is moved up by `n` times the vertices of its material. -/
theorem C156_copies {vs : Nat} {m : Mesh F} (read : Readable vs m) {n : Nat} (pos : 0 < n) :
    (mergeEach m (List.replicate n m)).2 = none ↔
      ∀ a ∈ m.mats, ∀ v ∈ indexData m a, v + n * a.vnum ≤ 65535 := by
  have hr : ∀ o ∈ List.replicate n m, o = m := fun o ho => List.eq_of_mem_replicate ho
  rw [(C156_succeeds_exactly read (fun o ho => by rw [hr o ho]; exact read)
    (fun o ho => by rw [hr o ho]; exact compatible_refl m)).1, copies_overflow read.inside pos]
  simp

/-- So a material that uses its last vertex can be stacked as often as 65536 vertices allow. -/
theorem C156_copies_last {vs : Nat} {m : Mesh F} (read : Readable vs m) {n : Nat} (pos : 0 < n)
    (own : ∀ a ∈ m.mats, ∀ v ∈ indexData m a, v < a.vnum)
    (last : ∀ a ∈ m.mats, a.vnum - 1 ∈ indexData m a) :
    (mergeEach m (List.replicate n m)).2 = none ↔ ∀ a ∈ m.mats, (n + 1) * a.vnum ≤ 65536 := by
  rw [C156_copies read pos]
  constructor
  · intro h a ha
    have := h a ha _ (last a ha)
    rw [Int.add_mul]
    omega
  · intro h a ha v hv
    have h1 := h a ha
    have h2 := own a ha v hv
    rw [Int.add_mul] at h1
    omega

example : (∀ a ∈ mergeA.mats, ∀ v ∈ indexData mergeA a, v < a.vnum) ∧
    (∀ a ∈ mergeA.mats, a.vnum - 1 ∈ indexData mergeA a) ∧
    (∀ a ∈ mergeA.mats, (32767 + 1) * a.vnum ≤ 65536) ∧
    ¬ ∀ a ∈ mergeA.mats, (32768 + 1) * a.vnum ≤ 65536 :=
  ⟨by decide, by decide, by decide, by decide⟩

/-- Meshes that do not fit the first one are passed over without a word: the loop leaves the same
mesh and raises the same as without them. -/
theorem C156_skips {vs : Nat} {m : Mesh F} {os : List (Mesh F)} (first : Readable vs m)
    (others : ∀ o ∈ os, Compatible m o → Readable vs o)
    (answers : ∀ o ∈ os, ∃ b, canMerge m o = .ok b) (fits : Mesh F → Bool)
    (right : ∀ o ∈ os, fits o = true ↔ Compatible m o) :
    mergeEach m os = mergeEach m (os.filter fits) :=
  chain_filter first (fun o ho h => others o ho ((canMerge_true m o).1 h)) answers fits
    fun o ho => by rw [right o ho, canMerge_true]

example : ∃ fits : Mesh Nat → Bool, (∀ o ∈ [mergeB, triple 0 [], mergeA], fits o = true ↔ Compatible mergeA o) ∧
    (∀ o ∈ [mergeB, triple 0 [], mergeA], ∃ b, canMerge mergeA o = .ok b) ∧
    (∀ o ∈ [mergeB, triple 0 [], mergeA], Compatible mergeA o → Readable 1 o) ∧
    (mergeEach mergeA [mergeB, triple 0 [], mergeA]).2 = none ∧
    (mergeEach mergeA [mergeB, triple 0 [], mergeA]).1.vertices =
      (mergeEach mergeA [mergeB, mergeA]).1.vertices := by
  have h1 : canMerge mergeA mergeB = .ok true := (canMerge_true _ _).2 mergeAB
  have h2 : canMerge mergeA (triple 0 []) = .ok false := by decide +kernel
  have h3 : canMerge mergeA mergeA = .ok true := (canMerge_true _ _).2 (compatible_refl _)
  refine ⟨fun o => decide (canMerge mergeA o = .ok true), fun o _ => by rw [← canMerge_true]; simp, ?_, ?_, ?_, ?_⟩
  · intro o ho
    simp only [List.mem_cons, List.not_mem_nil, or_false] at ho
    rcases ho with rfl | rfl | rfl
    · exact ⟨_, h1⟩
    · exact ⟨_, h2⟩
    · exact ⟨_, h3⟩
  · intro o ho hc
    simp only [List.mem_cons, List.not_mem_nil, or_false] at ho
    rcases ho with rfl | rfl | rfl
    · exact mergeB_readable
    · rw [← canMerge_true, h2] at hc; simp at hc
    · exact mergeA_readable
  · decide +kernel
  · decide +kernel

/-- **C156.** At a merge that raises the loop stops with its exception and leaves the mesh as that merge left it. -/
theorem C156_raises {m m' : Mesh F} {os rest : List (Mesh F)} {o : Mesh F} {e : Err}
    (before : mergeEach m os = (m', none)) (raises : (merge m' o).2 = .error e) :
    mergeEach m (os ++ o :: rest) = ((merge m' o).1, some e) := by
  induction os generalizing m with
  | nil =>
    cases before
    rcases h : merge m' o with ⟨n, r⟩
    rw [h] at raises
    cases raises
    rw [List.nil_append, mergeEach, h]
  | cons b os ih =>
    rw [mergeEach] at before
    rw [List.cons_append, mergeEach]
    rcases h : merge m b with ⟨n, e' | r⟩
    · rw [h] at before
      cases before
    · rw [h] at before
      exact ih before

/-- The second of three meshes fails at its second material: the first one has its new counts. -/
example : mergeEach mergeA ([mergeB] ++ mergeD :: [mergeA]) =
      ((merge (mergeEach mergeA [mergeB]).1 mergeD).1, some .indexError) ∧
    (mergeEach mergeA [mergeB]).1.mats.map (fun a => (a.vstart, a.vnum, a.istart, a.inum)) =
      [(0, 3, 0, 3), (3, 4, 3, 3)] ∧
    (merge (mergeEach mergeA [mergeB]).1 mergeD).1.mats.map (fun a => (a.vstart, a.vnum, a.istart, a.inum)) =
      [(0, 5, 0, 5), (3, 4, 3, 3)] :=
  ⟨C156_raises (Prod.ext rfl (by decide +kernel)) (by decide +kernel), by decide +kernel, by decide +kernel⟩

end Bf2
