import Verif.OldMergeLemmas
import Verif.Props.OldEdit
import Verif.Props.Merge

/-!
# `merge` of `/repo/deprecated/modmesh.py`: C91 - C93
-/

namespace Bf2

variable {F : Type}

/-! ## Samples -/

/-- Every material of a mesh gets bounds from `z` to `z`. -/
def Mesh.boundAt (m : Mesh F) (z : F) : Mesh F :=
  { m with geoms := m.geoms.map fun g => { g with lods := g.lods.map fun l => { l with
      materials := l.materials.map fun a => { a with mmin := some ⟨z, z, z⟩, mmax := some ⟨z, z, z⟩ } } } }

/-- Two materials of two and one vertices. -/
def joinA : Mesh F64 :=
  (meshOf (flt 0) posAttrs 16 3 [[(0, 2, 0, 3)], [(2, 1, 3, 3)]] upto12 [0, 1, 1, 0, 0, 0]).boundAt
    (flt 0)

/-- Two materials of one vertex; the second index is `v`. -/
def joinB (v : Int) : Mesh F64 :=
  (meshOf (flt 0) posAttrs 16 2 [[(0, 1, 0, 3)], [(1, 1, 3, 3)]]
    ([21, 22, 23, 24, 25, 26, 27, 28].map flt) [0, v, 0, 0, 0, 0]).boundAt (flt 0)

theorem joinAB (v : Int) : OldMergeable 4 joinA.old (joinB v).old where
  packed := ⟨posTable, rfl⟩
  packed' := ⟨posTable, rfl⟩
  attrs := rfl
  static := .inl rfl
  counts := .cons (.cons rfl .nil) (.cons (.cons rfl .nil) .nil)
  verts := by unfold VertsExist; decide +kernel
  verts' := by
    have : (joinB v).old.mats = (joinB 0).old.mats := rfl
    have h2 : (joinB v).old.vertnum = (joinB 0).old.vertnum := rfl
    unfold VertsExist; rw [this, h2]; decide +kernel
  index := by unfold IndexExist; decide +kernel
  index' := by
    have : (joinB v).old.mats = (joinB 0).old.mats := rfl
    have h2 : (joinB v).old.index.length = (joinB 0).old.index.length := rfl
    unfold IndexExist; rw [this, h2]; decide +kernel

theorem joinA_bounds : HasBounds joinA.old := by unfold HasBounds; decide +kernel

section
variable [FArith F]

/-! ## C91: merging concatenates -/

/-- Merging mergeable meshes, the first with bounds, succeeds.  Every material gets its vertices, then
those of the material of the other mesh; its indices, then the other's shifted by its number of
vertices.  The materials of the result tile both arrays.  Bounds grow to all positions, the other
mesh's included; nothing else changes. -/
theorem C91_merge_concatenates [LawfulLt F] {vs p : Nat} {m o : OldMesh F}
    (mergeable : OldMergeable vs m o) (pos : Float3At m.vertformat m.vattrs 0 p)
    (bounds : HasBounds m) (small : (m.ids.length + o.ids.length) * vs ≤ 2 ^ 53) :
    ∃ m', oldMerge m o = (m', none) ∧
      m' = { m with
        geoms := m'.geoms, vertices := m'.vertices, vertsList := false, vertnum := m'.vertnum
        index := m'.index, indexnum := m'.index.length, indexList := false } ∧
      Packed vs m' ∧ OldTiled m' ∧ OldTiledIndex m' ∧
      List.Forall₂ (fun g g' : OldGeom F => g'.lodnum = g.lodnum ∧
        List.Forall₂ (OldLodMerged vs p m') g.lods g'.lods) m.geoms m'.geoms ∧
      ∀ (i : Nat) a b, m.mats[i]? = some a → o.mats[i]? = some b →
        ∃ a', m'.mats[i]? = some a' ∧ OldMatMerged vs m o m' a b a' ∧ MatGrown vs p m' a a' := by
  obtain ⟨m1, gs, m', mid, h4, hmerge, rfl, hfin⟩ := oldMerge_final mergeable pos bounds small
  refine ⟨_, hmerge, ?_, ⟨mid.packed.table, mid.packed.count⟩, hfin.tiled mergeable,
    hfin.tiledIndex mergeable, lods_merged mid.shape h4 rfl, ?_⟩
  · rw [mid.rest]
  · intro i a b ha hb
    obtain ⟨a', ha', hmm⟩ := hfin.mat mergeable ha hb
    refine ⟨a', ha', hmm, ?_⟩
    obtain ⟨a1, ha1, mn, mx, mn', mx', e1, e2, e3, e4⟩ := forall₂_getElem? h4.mats.flip ha'
    obtain ⟨e5, e6⟩ := mid.mat_bounds ha hb ha1
    refine ⟨mn, mx, mn', mx', by rw [← e5]; exact e1, by rw [← e6]; exact e2, by rw [e3], by rw [e3], ?_⟩
    have : OldPosOf vs p { m1 with
        geoms := gs, index := mergedIndex m o, indexnum := (mergedIndex m o).length
        indexList := false } a' = OldPosOf vs p m1 a1 := by
      rw [e3]; rfl
    rw [this]
    exact e4

end

/-- The sample meshes: vertices, indices, ranges and bounds of the result. -/
example : (oldMerge joinA.old (joinB 0).old).2 = none ∧
    (oldMerge joinA.old (joinB 0).old).1.vertices =
      [1, 2, 3, 4, 5, 6, 7, 8, 21, 22, 23, 24, 9, 10, 11, 12, 25, 26, 27, 28].map flt ∧
    (oldMerge joinA.old (joinB 0).old).1.index = [0, 1, 1, 2, 2, 2, 0, 0, 0, 1, 1, 1] ∧
    (oldMerge joinA.old (joinB 0).old).1.mats.map (fun a => (a.vstart, a.vnum, a.istart, a.inum)) =
      [(0, 3, 0, 6), (3, 2, 6, 6)] ∧
    (oldMerge joinA.old (joinB 0).old).1.mats.map (·.mmax) =
      [some ⟨flt 21, flt 22, flt 23⟩, some ⟨flt 25, flt 26, flt 27⟩] ∧
    OldMergeable 4 joinA.old (joinB 0).old ∧ HasBounds joinA.old ∧
    Float3At joinA.old.vertformat joinA.old.vattrs 0 0 ∧
    (joinA.old.ids.length + (joinB 0).old.ids.length) * 4 ≤ 2 ^ 53 :=
  ⟨by decide +kernel, by decide +kernel, by decide +kernel, by decide +kernel, by decide +kernel,
    joinAB 0, joinA_bounds, posTable_float3, by decide⟩

section
variable [FArith F]

/-! ## C92: comparison with the package -/

omit [FArith F] in
/-- A material without its bounds. -/
def Mat.unbound (a : Mat F) : Mat F := { a with mmin := none, mmax := none }

/-- Meshes both modules can merge: they compute the same arrays, counts and ranges. -/
theorem C92_same_as_package [LawfulLt F] {vs p : Nat} {m o : Mesh F} {ix ox : List Int}
    (compat : Compatible m o) (inside : Inside vs m) (inside' : Inside vs o)
    (many : m.index = .many ix) (many' : o.index = .many ox) (fits : ¬ Overflows m o)
    (mergeable : OldMergeable vs m.old o.old)
    (pos : Float3At m.vertformat (m.vattrs.map VAttr.signed) 0 p) (bounds : HasBounds m.old)
    (small : (m.old.ids.length + o.old.ids.length) * vs ≤ 2 ^ 53) :
    ∃ m1 m2, oldMerge m.old o.old = (m1, none) ∧ merge m o = (m2, .ok .done) ∧
      m1.vertices = m2.vertices ∧ m1.vertnum = m2.vertnum ∧ .many m1.index = m2.index ∧
      m1.indexnum = m2.indexnum ∧ m1.mats.map Mat.unbound = m2.mats.map Mat.unbound := by
  obtain ⟨mm, gs, m1, mid, h4, h1, e, hfin⟩ := oldMerge_final mergeable pos bounds small
  obtain ⟨m2, h2, hm⟩ := merge_ok compat inside inside' many many' fits
  have hmats := old_mats m
  have hmats' := old_mats o
  have hi : mergedIndex m.old o.old = (List.zipWith (pairIndex m o) m.mats o.mats).flatten := by
    unfold mergedIndex
    rw [hmats, hmats']
    rfl
  refine ⟨m1, m2, h1, h2, ?_, ?_, ?_, ?_, ?_⟩
  · rw [hfin.vertices, hm.vertices]
    unfold mergedVerts
    rw [hmats, hmats']
    rfl
  · rw [hfin.vertnum, hm.vertnum, hmats, hmats']
  · rw [hfin.index, hm.index, hi]
  · have e1 : m1.indexnum = (mergedIndex m.old o.old).length := by rw [e]
    have e2 := zip_pairI_length (i1 := m.old.index) (i2 := o.old.index) m.old.mats o.old.mats
      mergeable.index mergeable.index'
    rw [e1, hm.indexnum, ← hmats, ← hmats', ← e2]
    rfl
  · rw [hfin.field Mat.unbound (fun _ _ _ => rfl), hm.mats, hmats, hmats']

/-- The package refuses to make an index of more than 16 bits; the deprecated module makes it, and then
cannot save the mesh. -/
theorem C92_no_overflow_check [LawfulLt F] [FCodec F] {vs p : Nat} {m o : OldMesh F}
    (mergeable : OldMergeable vs m o) (pos : Float3At m.vertformat m.vattrs 0 p)
    (bounds : HasBounds m) (small : (m.ids.length + o.ids.length) * vs ≤ 2 ^ 53)
    (big : ∃ (i : Nat) (a b : Mat F) (v : Int), m.mats[i]? = some a ∧ o.mats[i]? = some b ∧
      v ∈ o.idata b ∧ 65535 < v + a.vnum) (pl : Plat) :
    (oldMerge m o).2 = none ∧ (oldSave pl (oldMerge m o).1).err ≠ none := by
  obtain ⟨mm, gs, m1, mid, h4, h1, e, hfin⟩ := oldMerge_final mergeable pos bounds small
  rw [h1]
  refine ⟨rfl, ?_⟩
  obtain ⟨i, a, b, v, ha, hb, hv, hbig⟩ := big
  have hmem : v + a.vnum ∈ m1.index := by
    rw [hfin.index]
    unfold mergedIndex
    refine List.mem_flatten.2 ⟨m.idata a ++ (o.idata b).map (· + a.vnum), ?_, ?_⟩
    · refine List.mem_of_getElem? (i := i) ?_
      rw [List.getElem?_zipWith, ha, hb]
    · exact List.mem_append_right _ (List.mem_map.2 ⟨v, hv, rfl⟩)
  intro hno
  unfold oldSave at hno
  simp only [all_cons_err] at hno
  obtain ⟨-, -, -, -, -, -, -, -, -, -, -, hs, -⟩ := hno
  unfold packShorts at hs
  split at hs
  · next hall =>
    have := List.all_eq_true.1 hall _ hmem
    unfold fitsShort at this
    simp at this
    omega
  · simp [Out.raise] at hs

end

theorem joinAB_package : Compatible joinA (joinB 0) ∧ Inside 4 joinA ∧ Inside 4 (joinB 0) ∧
    ¬ Overflows joinA (joinB 0) := by
  refine ⟨⟨by repeat' constructor, rfl⟩, ⟨by decide, ⟨[3, 1], rfl, rfl⟩, by decide +kernel,
    by decide +kernel⟩, ⟨by decide, ⟨[3, 1], rfl, rfl⟩, by decide +kernel, by decide +kernel⟩, ?_⟩
  rintro ⟨i, a, b, v, ha, hb, hv, h⟩
  have h1 : a.vnum ≤ 2 := by
    have : ∀ a ∈ joinA.mats, a.vnum ≤ 2 := by decide +kernel
    exact this a (List.mem_of_getElem? ha)
  have h2 : v ≤ 1 := by
    have : ∀ b ∈ (joinB 0).mats, ∀ v ∈ indexData (joinB 0) b, v ≤ 1 := by decide +kernel
    exact this b (List.mem_of_getElem? hb) v hv
  omega

/-- The same two meshes in the package; and with an index of 65535. -/
example : (Compatible joinA (joinB 0) ∧ Inside 4 joinA ∧ Inside 4 (joinB 0) ∧
      ¬ Overflows joinA (joinB 0)) ∧
    (merge joinA (joinB 0)).1.vertices =
      [1, 2, 3, 4, 5, 6, 7, 8, 21, 22, 23, 24, 9, 10, 11, 12, 25, 26, 27, 28].map flt ∧
    (merge joinA (joinB 65535)).2 = .error .overflowError ∧
    (oldMerge joinA.old (joinB 65535).old).2 = none ∧
    (oldSave ⟨false, false⟩ (oldMerge joinA.old (joinB 65535).old).1).err = some .structError ∧
    OldMergeable 4 joinA.old (joinB 65535).old :=
  ⟨joinAB_package, by decide +kernel, by decide +kernel, by decide +kernel, by decide +kernel,
    joinAB _⟩

section
variable [FArith F]

/-! ## C93: meshes that do not fit together -/

/-- Without a static mesh among the two, with different attribute tables or numbers of geoms: a
`NotImplementedError` and nothing is changed. -/
theorem C93_refused (m o : OldMesh F)
    (h : (m.kind.isStatic = false ∧ o.kind.isStatic = false) ∨ m.vattrs ≠ o.vattrs ∨
      m.geoms.length ≠ o.geoms.length) : oldMerge m o = (m, some .notImplementedError) := by
  unfold oldMerge
  by_cases h1 : m.kind.isStatic = false ∧ o.kind.isStatic = false
  · rw [if_pos h1]
  rw [if_neg h1]
  by_cases h2 : m.vattrs ≠ o.vattrs
  · rw [if_pos h2]
  rw [if_neg h2, if_pos]
  rcases h with h | h | h
  · exact absurd h h1
  · exact absurd h h2
  · exact h

/-- Otherwise a material the other mesh has no counterpart of makes an `IndexError`.  Vertices and
indices are as before, the ranges of materials may not be. -/
theorem C93_index_error {vs vs' : Nat} {m o : OldMesh F} (packed : Packed vs m)
    (packed' : Packed vs' o) (attrs : m.vattrs = o.vattrs)
    (static : m.kind.isStatic = true ∨ o.kind.isStatic = true)
    (geoms : m.geoms.length = o.geoms.length) {i j k : Nat} {g h : OldGeom F} {l : OldLod F} {a : Mat F}
    (hg : m.geoms[i]? = some g) (hl : g.lods[j]? = some l) (ha : l.materials[k]? = some a)
    (hh : o.geoms[i]? = some h)
    (missing : ∀ q, h.lods[j]? = some q → q.materials[k]? = none) :
    ∃ gs, oldMerge m o = ({ m with geoms := gs }, some .indexError) := by
  obtain ⟨n, hn, hlen⟩ := packed.num
  obtain ⟨n', hn', hlen'⟩ := packed'.num
  obtain ⟨v1, hv1, -⟩ := getVertices_holds packed.table hn hlen
  obtain ⟨v2, hv2, -⟩ := getVertices_holds packed'.table hn' hlen'
  have key : (travO (oldMergeGeom m o v1 v2) ⟨[], [], 0, 0⟩ m.geoms o.geoms).2.2 =
      some .indexError := by
    refine travO_raises oldMergeGeom_only _ _ _ hg fun s => ?_
    rw [hh]
    refine travO_raises oldMergeLod_only s g.lods _ hl fun s => ?_
    refine travO_raises oldMergeMat_only s l.materials _ ha fun s => ?_
    have : ((((Option.map OldGeom.lods (some h)).getD [])[j]?.map OldLod.materials).getD [])[k]? =
        none := by
      rcases hq : h.lods[j]? with _ | q
      · simp [hq]
      · simpa [hq] using missing q hq
    rw [this]
    rfl
  unfold oldMerge
  have hst : ¬ (m.kind.isStatic = false ∧ o.kind.isStatic = false) := by
    rcases static with h | h <;> simp [h]
  rw [if_neg hst, if_neg (by simpa using attrs), if_neg (by simpa using geoms), hv1]
  simp only [hv2]
  rcases ht : travO (oldMergeGeom m o v1 v2) ⟨[], [], 0, 0⟩ m.geoms o.geoms with ⟨s, gs, e⟩
  rw [ht] at key
  simp only at key
  subst key
  exact ⟨gs, rfl⟩

/-- If a material of the first mesh has no bounds: a `TypeError`.  By then the vertices are merged and
the materials have their new ranges, but the index array is still the old one. -/
theorem C93_no_bounds {vs p : Nat} {m o : OldMesh F} (mergeable : OldMergeable vs m o)
    (pos : Float3At m.vertformat m.vattrs 0 p) (none : ∃ a ∈ m.mats, a.mmin = none ∨ a.mmax = none)
    (small : (m.ids.length + o.ids.length) * vs ≤ 2 ^ 53) :
    (oldMerge m o).2 = some .typeError ∧ (oldMerge m o).1.index = m.index ∧
      (oldMerge m o).1.vertices =
        (List.zipWith (fun a b => m.vdata vs a ++ o.vdata vs b) m.mats o.mats).flatten := by
  have small' : (mergedVerts vs m o).length ≤ 2 ^ 53 := by
    rw [mergedVerts_length mergeable mergeable.mats_length]; exact small
  obtain ⟨m1, mid, hmerge⟩ := oldMerge_mid mergeable small'
  have hno : ∃ a ∈ m1.mats, a.mmin = Option.none ∨ a.mmax = Option.none := by
    obtain ⟨a, ha, hn⟩ := none
    obtain ⟨i, hi⟩ := List.mem_iff_getElem?.1 ha
    have hlt : i < o.mats.length := by
      rw [← mergeable.mats_length]
      exact (List.getElem?_eq_some_iff.1 hi).1
    have hb := List.getElem?_eq_getElem hlt
    have hm1 : i < m1.mats.length := by
      rw [mid.mats, retile_length, List.length_zipWith]
      have := (List.getElem?_eq_some_iff.1 hi).1
      omega
    have h1 := List.getElem?_eq_getElem hm1
    obtain ⟨e1, e2⟩ := mid.mat_bounds hi hb h1
    exact ⟨_, List.mem_of_getElem? h1, by rw [e1, e2]; exact hn⟩
  have h3 := oldUpdateBoundaries_typeError (o := p) mid.packed (by rw [mid.rest]; exact pos) hno
  obtain ⟨gs, h4⟩ := oldUpdateBoundaries_fst m1
  rcases hu : oldUpdateBoundaries m1 with ⟨m', e⟩
  rw [hu] at h3 h4
  simp only at h3 h4
  subst h3
  rw [hmerge, hu]
  refine ⟨rfl, ?_, ?_⟩
  · simp only; rw [h4, mid.rest]
  · simp only; rw [h4, mid.rest]; rfl

/-- Surplus lods and materials of the other mesh are silently left out. -/
theorem C93_surplus_left_out {m o : OldMesh F} {hs : List (OldGeom F)}
    (counts : OldSameCounts m { o with geoms := hs }) (cut : List.Forall₂ GeomCut hs o.geoms) :
    oldMerge m o = oldMerge m { o with geoms := hs } := by
  have key : ∀ v1 v2 s, travO (oldMergeGeom m o v1 v2) s m.geoms o.geoms =
      travO (oldMergeGeom m { o with geoms := hs } v1 v2) s m.geoms hs := by
    intro v1 v2 s
    refine travO_congr counts (List.prefix_refl _) cut ?_ s
    rintro s g h' h hgh ⟨ls, hls, hf⟩
    unfold oldMergeGeom
    have : travO (oldMergeLod m o v1 v2) s g.lods ((Option.map OldGeom.lods (some h)).getD []) =
        travO (oldMergeLod m o v1 v2) s g.lods ((Option.map OldGeom.lods (some h')).getD []) := by
      refine travO_congr hgh hls hf ?_ s
      intro s l k' k hlk hkk
      unfold oldMergeLod
      have : travO (oldMergeMat m o v1 v2) s l.materials
          ((Option.map OldLod.materials (some k)).getD []) =
          travO (oldMergeMat m o v1 v2) s l.materials
          ((Option.map OldLod.materials (some k')).getD []) := by
        refine travO_congr (R := fun _ _ => True) (S := Eq) ?_ hkk
          (List.forall₂_same.2 fun _ _ => rfl) ?_ s
        · exact List.forall₂_iff_get.2 ⟨hlk, fun _ _ _ => trivial⟩
        · intro s a b' b _ hb
          rw [hb]
      rw [this]
    rw [this]
  have hl : o.geoms.length = hs.length := cut.length_eq.symm
  unfold oldMerge
  simp only [key, hl]
  rfl

end

/-- A mesh like `joinB 0` whose second geom has no material. -/
def joinShort : Mesh F64 :=
  meshOf (flt 0) posAttrs 16 1 [[(0, 1, 0, 3)], []] ([21, 22, 23, 24].map flt) [0, 0, 0]

/-- `joinB 0` with one more material in the first geom. -/
def joinLong : Mesh F64 :=
  meshOf (flt 0) posAttrs 16 2 [[(0, 1, 0, 3), (0, 2, 0, 3)], [(1, 1, 3, 3)]]
    ([21, 22, 23, 24, 25, 26, 27, 28].map flt) [0, 0, 0, 0, 0, 0]

/-- Another attribute table; a missing material, before which a range was changed; no bounds. -/
example : oldMerge joinA.old { (joinB 0).old with vattrs := [] } =
      (joinA.old, some .notImplementedError) ∧
    (oldMerge joinA.old joinShort.old).2 = some .indexError ∧
    (oldMerge joinA.old joinShort.old).1.mats.map (·.vnum) = [3, 1] ∧
    (oldMerge joinA.old joinShort.old).1.vertices = upto12 ∧ Packed 4 joinShort.old ∧
    (oldMerge (movable (flt 0) upto12).old (movable (flt 0) upto12).old).2 = some .typeError :=
  ⟨C93_refused _ _ (.inr (.inl (by decide))), by decide +kernel, by decide +kernel, by decide +kernel,
    ⟨posTable, rfl⟩, by decide +kernel⟩

/-- A surplus material. -/
example : (oldMerge joinA.old joinLong.old).2 = none ∧
    (oldMerge joinA.old joinLong.old).1.vertices = (oldMerge joinA.old (joinB 0).old).1.vertices ∧
    List.Forall₂ GeomCut (oldGeoms staticKind []
      [geomOf (flt 0) [(0, 1, 0, 3)], geomOf (flt 0) [(1, 1, 3, 3)]]) joinLong.old.geoms :=
  ⟨by decide +kernel, by decide +kernel,
    .cons ⟨_, List.prefix_refl _, .cons ⟨[matOf (0, 2, 0, 3)], rfl⟩ .nil⟩
      (.cons ⟨_, List.prefix_refl _, .cons ⟨[], rfl⟩ .nil⟩ .nil)⟩

end Bf2
