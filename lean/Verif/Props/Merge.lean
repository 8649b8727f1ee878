import Verif.MergeLemmas
import Verif.Props.Translate
import Verif.Props.Reorder

/-!
# Properties of `canMerge` and `merge` (C34 to C44)
-/

namespace Bf2

variable {F : Type}

/-! ## Samples -/

/-- Two materials of one and two vertices (of one float). -/
def mergeA : Mesh Nat :=
  meshOf 0 [⟨0, 0, 0, 0⟩] 4 3 [[(0, 1, 0, 1)], [(1, 2, 1, 2)]] [7, 8, 9] [0, 1, 0]

/-- The same structure with other data, the second material first. -/
def mergeB : Mesh Nat :=
  meshOf 0 [⟨0, 0, 0, 0⟩] 4 4 [[(2, 2, 1, 2)], [(0, 2, 0, 1)]] [1, 2, 3, 4] [0, 1, 0]

/-- The same structure, and an index that overflows behind another vertex. -/
def mergeC : Mesh Nat :=
  meshOf 0 [⟨0, 0, 0, 0⟩] 4 2 [[(0, 1, 0, 1)], [(1, 1, 1, 1)]] [5, 6] [0, 65535]

theorem agree_refl (a : Mat F) : MatAgree a a := ⟨rfl, rfl, rfl, rfl⟩

theorem mergeAB : Compatible mergeA mergeB :=
  ⟨by repeat' constructor, rfl⟩

theorem mergeAC : Compatible mergeA mergeC :=
  ⟨by repeat' constructor, rfl⟩

theorem mergeBC : Compatible mergeB mergeC :=
  ⟨by repeat' constructor, rfl⟩

theorem mergeA_inside : Inside 1 mergeA := ⟨by decide, ⟨[1], rfl, rfl⟩, by decide, by decide⟩
theorem mergeB_inside : Inside 1 mergeB := ⟨by decide, ⟨[1], rfl, rfl⟩, by decide, by decide⟩
theorem mergeC_inside : Inside 1 mergeC := ⟨by decide, ⟨[1], rfl, rfl⟩, by decide, by decide⟩

/-! ## C34: incompatible merge is a silent no-op -/

/-- When `canMerge(other)` is `False`, `merge(other)` raises nothing, returns the class
`NotImplementedError` and leaves the mesh as it was. -/
theorem C34_refused_silently (m o : Mesh F) (h : canMerge m o = .ok false) :
    merge m o = (m, .ok .notImplemented) := by
  unfold merge
  rw [h]

/-- Meshes that are not compatible are never changed by `merge`; the call either returns the class
or raises what `canMerge` raises. -/
theorem C34_incompatible_untouched (m o : Mesh F) (h : ¬ Compatible m o) :
    (merge m o).1 = m ∧ (merge m o).2 ≠ .ok .done ∧
      ∀ e, (merge m o).2 = .error e ↔ canMerge m o = .error e := by
  unfold merge
  rw [← canMerge_true] at h
  rcases hc : canMerge m o with e | (_ | _)
  · simp
  · simp
  · exact absurd hc h

example : canMerge mergeA (triple 0 []) = .ok false ∧ ¬ Compatible mergeA (triple 0 []) :=
  ⟨by decide, fun h => absurd h.mats_length (by decide)⟩

/-! ## C35: merge concatenates material data -/

/-- A merge that succeeds: of the mesh only the geoms, the arrays and the two counts change; geoms
and lods stay but for their materials; each material gets the data of its counterpart behind its
own, the counts add up, and nothing else in it changes but the places of its data. -/
theorem C35_merge_concatenates {vs : Nat} {m o m' : Mesh F} {ix ox : List Int} (inside : Inside vs m)
    (inside' : Inside vs o) (many : m.index = .many ix) (many' : o.index = .many ox)
    (ok : merge m o = (m', .ok .done)) :
    m' = { m with
      geoms := m'.geoms, vertices := m'.vertices, index := m'.index, vertnum := m'.vertnum,
      indexnum := m'.indexnum } ∧
    m'.geoms.map Geom.shape = m.geoms.map Geom.shape ∧
    ∀ (i : Nat) a b, m.mats[i]? = some a → o.mats[i]? = some b →
      ∃ a', m'.mats[i]? = some a' ∧ MatMerged vs m o m' a b a' := by
  obtain ⟨-, -, h⟩ := merge_done inside inside' many many' ok
  exact ⟨h.rest, h.shape, fun i a b ha hb => h.mat inside inside' ha hb⟩

/-- Compatible meshes with readable data and no index overflow always merge. -/
theorem C35_merge_succeeds {vs : Nat} {m o : Mesh F} {ix ox : List Int} (compat : Compatible m o)
    (inside : Inside vs m) (inside' : Inside vs o) (many : m.index = .many ix)
    (many' : o.index = .many ox) (small : ¬ Overflows m o) :
    ∃ m', merge m o = (m', .ok .done) := by
  obtain ⟨m', h, -⟩ := merge_ok compat inside inside' many many' small
  exact ⟨m', h⟩

theorem mergeAB_small : ¬ Overflows mergeA mergeB := by
  rintro ⟨i, a, b, v, ha, hb, hv, h⟩
  have h1 : a.vnum ≤ 2 := by
    have : ∀ a ∈ mergeA.mats, a.vnum ≤ 2 := by decide
    exact this a (List.mem_of_getElem? ha)
  have h2 : v ≤ 1 := by
    have : ∀ b ∈ mergeB.mats, ∀ v ∈ indexData mergeB b, v ≤ 1 := by decide
    exact this b (List.mem_of_getElem? hb) v hv
  omega

/-- The two sample meshes merge; the arrays and counts they give. -/
example : (merge mergeA mergeB).2 = .ok .done ∧
    (merge mergeA mergeB).1.vertices = [7, 3, 4, 8, 9, 1, 2] ∧
    (merge mergeA mergeB).1.index = .many [0, 2, 1, 1, 0, 2] ∧
    (merge mergeA mergeB).1.mats.map Mat.vnum = [3, 4] ∧
    Compatible mergeA mergeB ∧ Inside 1 mergeA ∧ Inside 1 mergeB ∧ ¬ Overflows mergeA mergeB :=
  ⟨by decide +kernel, by decide +kernel, by decide +kernel, by decide +kernel, mergeAB,
    mergeA_inside, mergeB_inside, mergeAB_small⟩

/-! ## C36: merge preserves every triangle corner -/

/-- If the indices of both materials name vertices of their own material, then after a merge the
indices of the material name, in order, exactly the vertices (all their floats) those of the first
mesh named, then those of the other. -/
theorem C36_corners_preserved {vs : Nat} {m o m' : Mesh F} {ix ox : List Int} (inside : Inside vs m)
    (inside' : Inside vs o) (many : m.index = .many ix) (many' : o.index = .many ox)
    (ok : merge m o = (m', .ok .done)) {i : Nat} {a b a' : Mat F} (ha : m.mats[i]? = some a)
    (hb : o.mats[i]? = some b) (ha' : m'.mats[i]? = some a')
    (ina : ∀ v ∈ indexData m a, 0 ≤ v ∧ v < a.vnum)
    (inb : ∀ v ∈ indexData o b, 0 ≤ v ∧ v < b.vnum) :
    (indexData m' a').map (corner vs (vertexData vs m' a')) =
      (indexData m a).map (corner vs (vertexData vs m a)) ++
      (indexData o b).map (corner vs (vertexData vs o b)) := by
  obtain ⟨-, -, h⟩ := merge_done inside inside' many many' ok
  obtain ⟨a1, h1, hm⟩ := h.mat inside inside' ha hb
  rw [ha'] at h1
  simp only [Option.some.injEq] at h1
  subst h1
  have hva := inside.verts a (List.mem_of_getElem? ha)
  have hlen := vertexData_length vs m a hva
  rw [hm.verts, hm.index, List.map_append, List.map_map]
  congr 1
  · apply List.map_congr_left
    intro v hv
    exact corner_left hlen (ina v hv).1 (ina v hv).2
  · apply List.map_congr_left
    intro v hv
    exact corner_right hlen hva.2.1 (inb v hv).1

example : (∀ (i : Nat) a, mergeA.mats[i]? = some a → ∀ v ∈ indexData mergeA a, 0 ≤ v ∧ v < a.vnum) ∧
    ∀ (i : Nat) b, mergeB.mats[i]? = some b → ∀ v ∈ indexData mergeB b, 0 ≤ v ∧ v < b.vnum := by
  have h1 : ∀ a ∈ mergeA.mats, ∀ v ∈ indexData mergeA a, 0 ≤ v ∧ v < a.vnum := by decide
  have h2 : ∀ a ∈ mergeB.mats, ∀ v ∈ indexData mergeB a, 0 ≤ v ∧ v < a.vnum := by decide
  exact ⟨fun i a h => h1 a (List.mem_of_getElem? h), fun i a h => h2 a (List.mem_of_getElem? h)⟩

/-! ## C37: merge never wraps an index -/

/-- Merging compatible meshes with readable data raises `OverflowError` if some shifted index
exceeds 65535, and succeeds otherwise. -/
theorem C37_overflow_exactly {vs : Nat} {m o : Mesh F} {ix ox : List Int} (compat : Compatible m o)
    (inside : Inside vs m) (inside' : Inside vs o) (many : m.index = .many ix)
    (many' : o.index = .many ox) :
    (Overflows m o → (merge m o).2 = .error .overflowError) ∧
      (¬ Overflows m o → (merge m o).2 = .ok .done) := by
  refine ⟨merge_overflow compat inside inside' many many', fun h => ?_⟩
  obtain ⟨m', h, -⟩ := merge_ok compat inside inside' many many' h
  rw [h]

/-- After a successful merge every index fits 16 bits if those of the first mesh did. -/
theorem C37_indices_fit {vs : Nat} {m o m' : Mesh F} {ix ox : List Int} (inside : Inside vs m)
    (inside' : Inside vs o) (many : m.index = .many ix) (many' : o.index = .many ox)
    (ok : merge m o = (m', .ok .done)) (fit : ∀ v ∈ m.index.elems, 0 ≤ v ∧ v ≤ 65535)
    (nonneg : ∀ v ∈ o.index.elems, 0 ≤ v) : ∀ v ∈ m'.index.elems, 0 ≤ v ∧ v ≤ 65535 :=
  merge_fits inside inside' many many' ok fit nonneg

theorem mergeAC_overflows : Overflows mergeA mergeC :=
  ⟨1, _, _, 65535, rfl, rfl, by decide, by decide⟩

example : Compatible mergeA mergeC ∧ Inside 1 mergeC ∧ Overflows mergeA mergeC ∧
    (∀ v ∈ mergeA.index.elems, 0 ≤ v ∧ v ≤ 65535) ∧ ∀ v ∈ mergeB.index.elems, 0 ≤ v :=
  ⟨mergeAC, mergeC_inside, mergeAC_overflows, by decide, by decide⟩

/-! ## C38: merge leaves consistent counts and tiling -/

/-- After a successful merge `vertnum` vertices and `indexnum` indices are exactly what the arrays
hold, and the materials tile both arrays, even if they did not before. -/
theorem C38_counts_and_tiling {vs : Nat} {m o m' : Mesh F} {ix ox : List Int} (inside : Inside vs m)
    (inside' : Inside vs o) (many : m.index = .many ix) (many' : o.index = .many ox)
    (ok : merge m o = (m', .ok .done)) :
    (m'.vertices.length : Int) = m'.vertnum * vs ∧ (m'.index.elems.length : Int) = m'.indexnum ∧
      TiledVerts vs m' ∧ TiledIndex m' := by
  obtain ⟨-, -, h⟩ := merge_done inside inside' many many' ok
  obtain ⟨h1, h2⟩ := h.tiled inside inside'
  refine ⟨?_, ?_, h1, h2⟩
  · rw [h1.total, h.vertnum, h.mats, retile_vnum]
  · rw [h2.total, h.indexnum, h.mats, retile_inum]

/-- `mergeB` is not tiled. -/
example : ¬ TiledVerts 1 mergeB ∧ (merge mergeB mergeA).2 = .ok .done :=
  ⟨fun h => absurd (h.start 0 _ rfl) (by decide), by decide +kernel⟩

/-! ## C39: a failing merge is not rolled back -/

/-- A merge that raises `OverflowError` at the second material has already changed the counts of the
first; the arrays are the old ones, so the first material now claims a vertex of the second, and the
mesh is no longer tiled. -/
theorem C39_not_rolled_back :
    ∃ (m o m' : Mesh Nat), Compatible m o ∧ TiledVerts 1 m ∧ Inside 1 o ∧
      merge m o = (m', .error .overflowError) ∧ m'.vertices = m.vertices ∧ m'.index = m.index ∧
      m.mats.map Mat.vnum = [1, 2] ∧ m'.mats.map Mat.vnum = [2, 2] ∧
      m.mats.map (vertexData 1 m) = [[7], [8, 9]] ∧
      m'.mats.map (vertexData 1 m') = [[7, 8], [8, 9]] ∧ ¬ TiledVerts 1 m' :=
  ⟨mergeA, mergeC, (merge mergeA mergeC).1, mergeAC,
    ⟨by decide, ⟨[1], rfl, rfl⟩, by decide, starts_of rfl, by decide⟩, mergeC_inside,
    by decide +kernel, by decide +kernel, by decide +kernel, by decide +kernel, by decide +kernel,
    by decide +kernel, by decide +kernel, fun h => absurd h.total (by decide +kernel)⟩

/-! ## C40: canMerge is a compatibility relation -/

/-- `canMerge` answers `True` exactly for compatible meshes. -/
theorem C40_true_iff_compatible (m o : Mesh F) : canMerge m o = .ok true ↔ Compatible m o :=
  canMerge_true m o

/-- When `canMerge` answers `False` the meshes are not compatible. -/
theorem C40_false_sound (m o : Mesh F) (h : canMerge m o = .ok false) : ¬ Compatible m o := by
  rw [← canMerge_true, h]
  simp

/-- Every mesh can merge itself. -/
theorem C40_reflexive (m : Mesh F) : canMerge m m = .ok true := by
  rw [canMerge_true]
  refine ⟨?_, rfl⟩
  exact List.forall₂_same.2 fun g _ => List.forall₂_same.2 fun l _ =>
    List.forall₂_same.2 fun a _ => agree_refl a

/-- The answers of both directions agree, as far as there are any. -/
theorem C40_symmetric (m o : Mesh F) (b b' : Bool) (h : canMerge m o = .ok b)
    (h' : canMerge o m = .ok b') : b = b' := by
  have hs : ∀ m o : Mesh F, Compatible m o → Compatible o m := by
    intro m o h
    refine ⟨?_, h.vattrs.symm⟩
    exact (h.geoms.imp fun g k hg => (hg.imp fun l j hl =>
      (hl.imp fun a b hab => (⟨hab.alphamode.symm, hab.fxfile.symm, hab.technique.symm,
        hab.maps.symm⟩ : MatAgree b a)).flip).flip).flip
  have h1 := canMerge_true m o
  have h2 := canMerge_true o m
  rw [h] at h1
  rw [h'] at h2
  cases b <;> cases b'
  · rfl
  · exact absurd (hs _ _ (h2.1 rfl)) (fun hh => by simpa using h1.2 hh)
  · exact absurd (hs _ _ (h1.1 rfl)) (fun hh => by simpa using h2.2 hh)
  · rfl

/-- Yes to `m` and `o` and to `o` and `p` gives yes to `m` and `p`. -/
theorem C40_transitive (m o p : Mesh F) (h : canMerge m o = .ok true)
    (h' : canMerge o p = .ok true) : canMerge m p = .ok true := by
  rw [canMerge_true] at *
  refine ⟨?_, h.vattrs.trans h'.vattrs⟩
  exact (h.geoms.trans_rel h'.geoms).imp fun g g'' ⟨g', h1, h2⟩ =>
    (h1.trans_rel h2).imp fun l l'' ⟨l', h3, h4⟩ =>
      (h3.trans_rel h4).imp fun a a'' ⟨a', h5, h6⟩ =>
        ⟨h5.alphamode.trans h6.alphamode, h5.fxfile.trans h6.fxfile,
          h5.technique.trans h6.technique, h5.maps.trans h6.maps⟩

example : canMerge mergeA mergeB = .ok true ∧ canMerge mergeB mergeC = .ok true ∧
    canMerge (triple 0 []) mergeA = .ok false ∧ canMerge mergeA (triple 0 []) = .ok false := by
  decide

/-! ## C41: canMerge may raise instead of answering False -/

/-- Same structure; a material without alpha mode (as in a skinned mesh) meets one with it before
any other difference: `TypeError`. -/
theorem C41_alphamode_type_error {m o : Mesh F} (counts : SameCounts m o)
    {pre post pre' post' : List (Mat F)} {a b : Mat F} (hm : m.mats = pre ++ a :: post)
    (ho : o.mats = pre' ++ b :: post') (agree : List.Forall₂ MatAgree pre pre')
    (ha : a.alphamode = none) (hb : b.alphamode ≠ none) : canMerge m o = .error .typeError := by
  refine canMerge_geoms ?_ (by simp)
  rw [canMerge_flat counts, hm, ho]
  refine all2_first (agree.imp fun a b h => (canMergeMat_true a b).2 h) ?_ (by simp)
  unfold canMergeMat
  rw [if_pos (by rw [ha]; exact fun h => hb h.symm), if_pos ha]

/-- The other way round `canMerge` answers `False`. -/
theorem C41_other_direction_false {m o : Mesh F} (counts : SameCounts m o)
    {pre post pre' post' : List (Mat F)} {a b : Mat F} (hm : m.mats = pre ++ a :: post)
    (ho : o.mats = pre' ++ b :: post') (agree : List.Forall₂ MatAgree pre pre')
    (ha : a.alphamode ≠ none) (hb : b.alphamode = none) : canMerge m o = .ok false := by
  refine canMerge_geoms ?_ (by simp)
  rw [canMerge_flat counts, hm, ho]
  refine all2_first (agree.imp fun a b h => (canMergeMat_true a b).2 h) ?_ (by simp)
  unfold canMergeMat
  rw [if_pos (by rw [hb]; exact ha), if_neg ha]

/-- Everything but the vertex attributes agrees; at the first attributes that differ the one of the
first mesh has a type or usage the package does not know: `ValueError`. -/
theorem C41_attribute_value_error {m o : Mesh F} {pre post post' : List VAttr} {a b : VAttr}
    (geoms : Compatible { m with vattrs := [] } { o with vattrs := [] })
    (hm : m.vattrs = pre ++ a :: post) (ho : o.vattrs = pre ++ b :: post')
    (len : post.length = post'.length) (ne : a ≠ b)
    (unknown : typeFloats a.vartype = none ∨ ¬ KnownUsage a.usage) :
    canMerge m o = .error .valueError := by
  have hg := (canMerge_true _ _).2 geoms
  have hall : all2 canMergeAttr m.vattrs o.vattrs = .error .valueError := by
    rw [hm, ho]
    refine all2_first (List.forall₂_same.2 fun a _ => (canMergeAttr_true a a).2 rfl) ?_ (by simp)
    unfold canMergeAttr
    rw [if_neg ne, declLen_eq]
    rcases unknown with h | h
    · rw [h]
    · rcases typeFloats a.vartype with _ | n
      · rfl
      · simp only
        rw [if_neg]
        rwa [usageKnown_iff]
  unfold canMerge at hg ⊢
  by_cases hl : m.geoms.length = o.geoms.length
  · rw [if_neg (by simpa using hl)] at hg ⊢
    simp only at hg
    rcases hr : all2 canMergeGeom m.geoms o.geoms with e | (_ | _)
    · rw [hr] at hg; simp at hg
    · rw [hr] at hg; simp at hg
    · simp only
      rw [if_neg (by rw [hm, ho]; simp [len]), hall]
  · rw [if_pos (by simpa using hl)] at hg
    simp at hg

/-- The first sample with its alpha modes taken away. -/
def noAlpha (m : Mesh F) : Mesh F := { m with
  geoms := m.geoms.map fun g => { g with lods := g.lods.map fun l => { l with
    materials := l.materials.map fun a => { a with alphamode := none } } } }

example : SameCounts (noAlpha mergeA) mergeB ∧
    (∀ a ∈ (noAlpha mergeA).mats, a.alphamode = none) ∧ (∀ b ∈ mergeB.mats, b.alphamode ≠ none) ∧
    canMerge (noAlpha mergeA) mergeB = .error .typeError ∧
    canMerge mergeB (noAlpha mergeA) = .ok false :=
  ⟨by unfold SameCounts; repeat' constructor, by decide, by decide, by decide, by decide⟩

example : Compatible { mergeA with vattrs := [] } { mergeB with vattrs := [] } ∧
    typeFloats 5 = none ∧ (⟨0, 0, 5, 0⟩ : VAttr) ≠ ⟨0, 0, 0, 0⟩ ∧
    canMerge { mergeA with vattrs := [⟨0, 0, 5, 0⟩] } mergeB = .error .valueError ∧
    canMerge mergeB { mergeA with vattrs := [⟨0, 0, 5, 0⟩] } = .ok false :=
  ⟨⟨mergeAB.geoms, rfl⟩, rfl, by decide, by decide, by decide⟩

/-! ## C42: self-merge equals merging a copy -/

/-- `mesh.merge(mesh)`, where the other material is the material itself and changes while it is
read, has the same outcome as merging with an equal but separate mesh. -/
theorem C42_self_merge (m : Mesh F) : mergeSelf m = merge m m := by
  unfold mergeSelf merge
  rw [trav2_self (mergeGeom_self m)]

example : (mergeSelf mergeA).1.vertices = [7, 7, 8, 9, 8, 9] ∧
    (mergeSelf mergeA).1.index = .many [0, 1, 1, 0, 3, 2] ∧ (mergeSelf mergeA).2 = .ok .done := by
  decide +kernel

/-! ## C43: merge is associative -/

/-- Merging three meshes in a row gives the same mesh in either grouping, when all merges
succeed. -/
theorem C43_associative {vs : Nat} {a b c ab bc x y : Mesh F} {ia ib ic : List Int}
    (ina : Inside vs a) (inb : Inside vs b) (inc : Inside vs c) (ma : a.index = .many ia)
    (mb : b.index = .many ib) (mc : c.index = .many ic) (hab : merge a b = (ab, .ok .done))
    (hbc : merge b c = (bc, .ok .done)) (hx : merge ab c = (x, .ok .done))
    (hy : merge a bc = (y, .ok .done)) : x = y := by
  obtain ⟨c1, -, h1⟩ := merge_done ina inb ma mb hab
  obtain ⟨c2, -, h2⟩ := merge_done inb inc mb mc hbc
  obtain ⟨t1, t2⟩ := h1.tiled ina inb
  obtain ⟨t3, t4⟩ := h2.tiled inb inc
  obtain ⟨-, -, h3⟩ := merge_done ⟨t1.pos, t1.size, t1.inside, t2.inside⟩ inc h1.index mc hx
  obtain ⟨-, -, h4⟩ := merge_done ina ⟨t3.pos, t3.size, t3.inside, t4.inside⟩ ma h2.index hy
  exact merged_assoc ina inb inc c1 c2 h1 h2 h3 h4

example : (merge mergeA mergeB).2 = .ok .done ∧ (merge mergeB mergeA).2 = .ok .done ∧
    (merge (merge mergeA mergeB).1 mergeA).2 = .ok .done ∧
    (merge mergeA (merge mergeB mergeA).1).2 = .ok .done := by
  decide +kernel

/-! ## C44: translate distributes over merge -/

/-- Translating two tiled meshes by the same offset and then merging them gives the same mesh as
merging first and then translating, whenever the merge succeeds. -/
theorem C44_translate_distributes [FArith F] {vs : Nat} {m o m' : Mesh F} {ix ox : List Int}
    {p : VAttr} {q : Nat} {d : List F} (tm : TiledVerts vs m) (tmi : TiledIndex m)
    (tv : TiledVerts vs o) (toi : TiledIndex o) (many : m.index = .many ix)
    (many' : o.index = .many ox) (first : FirstPosition m.vattrs p)
    (start : StartsAt m.vertformat p q) (start' : StartsAt o.vertformat p q)
    (fits : q + d.length ≤ vs) (ok : merge m o = (m', .ok .done)) :
    ∃ m1 o1 x, translate m d = (m1, none) ∧ translate o d = (o1, none) ∧
      merge m1 o1 = (x, .ok .done) ∧ translate m' d = (x, none) := by
  have inm : Inside vs m := ⟨tm.pos, tm.size, tm.inside, tmi.inside⟩
  have ino : Inside vs o := ⟨tv.pos, tv.size, tv.inside, toi.inside⟩
  obtain ⟨hc, hno, h⟩ := merge_done inm ino many many' ok
  obtain ⟨t1, t2⟩ := h.tiled inm ino
  have first' : FirstPosition o.vattrs p := by rw [← hc.vattrs]; exact first
  have hvm' : m'.vertformat = m.vertformat := by rw [h.rest]
  have ham' : m'.vattrs = m.vattrs := by rw [h.rest]
  have e1 := translate_tiled tm first start fits
  have e2 := translate_tiled tv first' start' fits
  have e3 := translate_tiled t1 (by rw [ham']; exact first) (by rw [hvm']; exact start) fits
  refine ⟨_, _, _, e1, e2, ?_, e3⟩
  have inm1 : Inside vs { m with vertices := movedAll vs q d m.vertices } :=
    ⟨tm.pos, tm.size, fun a ha => by
      have := tm.inside a ha
      unfold VertsInside at this ⊢
      simpa [movedAll_length] using this, tmi.inside⟩
  have ino1 : Inside vs { o with vertices := movedAll vs q d o.vertices } :=
    ⟨tv.pos, tv.size, fun a ha => by
      have := tv.inside a ha
      unfold VertsInside at this ⊢
      simpa [movedAll_length] using this, toi.inside⟩
  obtain ⟨x, hx, hmx⟩ := merge_ok (m := { m with vertices := movedAll vs q d m.vertices })
    (o := { o with vertices := movedAll vs q d o.vertices }) ⟨hc.geoms, hc.vattrs⟩ inm1 ino1 many
    many' hno
  rw [hx]
  congr 1
  have hpv : List.zipWith (pairVerts vs { m with vertices := movedAll vs q d m.vertices }
      { o with vertices := movedAll vs q d o.vertices }) m.mats o.mats =
      (List.zipWith (pairVerts vs m o) m.mats o.mats).map (movedAll vs q d) := by
    rw [List.map_zipWith]
    apply zipWith_ext m.mats.length rfl hc.mats_length.symm rfl hc.mats_length.symm
    intro i a b a' b' h1 h2 h3 h4
    rw [h1] at h3
    rw [h2] at h4
    simp only [Option.some.injEq] at h3 h4
    subst h3 h4
    have hva := tm.inside a (List.mem_of_getElem? h1)
    have hvb := tv.inside b (List.mem_of_getElem? h2)
    unfold pairVerts
    rw [vertexData_moved hva, vertexData_moved hvb, movedAll_append _ _ (vertexData_dvd hva)]
  have hv : x.vertices = movedAll vs q d m'.vertices := by
    rw [hmx.vertices, h.vertices, movedAll_flatten]
    · exact congrArg List.flatten hpv
    · intro l hl
      obtain ⟨i, hi⟩ := List.mem_iff_getElem?.1 hl
      rw [List.getElem?_zipWith] at hi
      rcases h1 : m.mats[i]? with _ | a
      · rw [h1] at hi; simp at hi
      rcases h2 : o.mats[i]? with _ | b
      · rw [h1, h2] at hi; simp at hi
      rw [h1, h2] at hi
      simp only [Option.some.injEq] at hi
      subst hi
      rw [(pairVerts_length (tm.inside a (List.mem_of_getElem? h1))
        (tv.inside b (List.mem_of_getElem? h2))).2]
      exact Nat.dvd_mul_left _ _
  have hg : x.geoms = m'.geoms := by
    apply geoms_ext
    · rw [hmx.shape, h.shape]
    · exact hmx.mats.trans h.mats.symm
  rw [hmx.rest, h.rest]
  simp only [hg, hv, hmx.index, h.index, hmx.vertnum, h.vertnum, hmx.indexnum, h.indexnum]
  rfl

/-- A tiled mesh of three vertices that merges with a copy of itself. -/
example : (merge (movable F64.zero ((List.range 12).map flt))
      (movable F64.zero ((List.range 12).map flt))).2 = .ok .done ∧
    TiledVerts 4 (movable F64.zero ((List.range 12).map flt)) ∧
    TiledIndex (movable F64.zero ((List.range 12).map flt)) ∧
    FirstPosition posAttrs ⟨0, 0, 2, 0⟩ ∧ StartsAt 4 ⟨0, 0, 2, 0⟩ 0 ∧
    0 + [flt 1, flt 2, flt 3].length ≤ 4 :=
  ⟨by decide +kernel, movable_tiled _ _ rfl,
    ⟨by simp [movable, meshOf, geomOf, matOf, Mesh.mats, Geom.mats], starts_of rfl, rfl⟩,
    posAttrs_first, posAttrs_start, by decide⟩

end Bf2
