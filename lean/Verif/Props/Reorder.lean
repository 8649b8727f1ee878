import Verif.ReorderLemmas
import Verif.Sample

/-!
# Properties of `change_geoms_order` (C29 to C33)
-/

namespace Bf2

variable {F : Type}

/-! ## Samples -/

/-- Three geoms of one vertex (one float) each; the materials tile the arrays. -/
def triple (z : F) (vs : List F) : Mesh F :=
  meshOf z [⟨0, 0, 0, 0⟩] 4 3 [[(0, 1, 0, 1)], [(1, 1, 1, 2)], [(2, 1, 3, 1)]] vs [0, 1, 2, 3]

theorem triple_verts (z : F) (vs : List F) (h : vs.length = 3) : TiledVerts 1 (triple z vs) where
  pos := by decide
  size := ⟨[1], rfl, rfl⟩
  nonneg := by simp [triple, meshOf, geomOf, matOf, Mesh.mats, Geom.mats]
  start := starts_of rfl
  total := by
    change (vs.length : Int) = _
    rw [h]; rfl

theorem triple_index (z : F) (vs : List F) : TiledIndex (triple z vs) where
  nonneg := by simp [triple, meshOf, geomOf, matOf, Mesh.mats, Geom.mats]
  start := starts_of rfl
  total := rfl

/-- The orders `[1, 2, 0]` and `[-1, 0, 1]` are inverse to each other. -/
theorem rotate_order : Permutes 3 [1, 2, 0] [1, 2, 0] where
  names := by repeat' constructor
  perm := by decide

theorem rotate_order_back : Permutes 3 [-1, 0, 1] [2, 0, 1] where
  names := .cons ⟨by decide, by decide⟩ (.cons ⟨by decide, by decide⟩
    (.cons ⟨by decide, by decide⟩ .nil))
  perm := by decide

/-! ## C29: reordering keeps each geom intact -/

/-- An order naming every geom once (negative ids allowed) succeeds; only the geom list and the two
arrays of the mesh change; position `k` of the new list holds the geom the order names there, with
the same lods, and the same materials with the same data; of the materials only `vstart` and
`istart` may differ. -/
theorem C29_reorder_keeps_geoms {vs : Nat} {m : Mesh F} {ix : List Int} {order : List Int}
    {js : List Nat} (inside : Inside vs m) (many : m.index = .many ix)
    (bound : (m.mats.map Mat.vnum).sum ≤ 2 ^ 53) (perm : Permutes m.geoms.length order js) :
    ∃ m' : Mesh F, changeGeomsOrder m order = (m', none) ∧
      m' = { m with geoms := m'.geoms, vertices := m'.vertices, index := m'.index } ∧
      m'.geoms.length = m.geoms.length ∧
      ∀ (k j : Nat), js[k]? = some j → ∃ g g', m.geoms[j]? = some g ∧ m'.geoms[k]? = some g' ∧
        GeomKept vs m m' g g' := by
  obtain ⟨m', h, hm, hk, hg⟩ := changeGeomsOrder_kept inside many bound perm
  refine ⟨m', h, hm, ?_, ?_⟩
  · rw [← hk.length_eq]
    exact (permutes_picked perm).length_eq
  · intro k j hkj
    have hj : j < m.geoms.length :=
      List.mem_range.1 (perm.perm.mem_iff.1 (List.mem_of_getElem? hkj))
    obtain ⟨g', h1, h2⟩ := forall₂_getElem? hk (picked_getElem? perm hkj (List.getElem?_eq_getElem hj))
    exact ⟨_, g', List.getElem?_eq_getElem hj, h1, h2⟩

example : Inside 1 (triple 0 [7, 8, 9]) ∧ (triple 0 [7, 8, 9]).index = .many [0, 1, 2, 3] ∧
    ((triple 0 [7, 8, 9]).mats.map Mat.vnum).sum ≤ 2 ^ 53 ∧
    Permutes (triple 0 [7, 8, 9]).geoms.length [1, 2, 0] [1, 2, 0] ∧
    (changeGeomsOrder (triple 0 [7, 8, 9]) [1, 2, 0]).1.vertices = [8, 9, 7] ∧
    (changeGeomsOrder (triple 0 [7, 8, 9]) [1, 2, 0]).1.index = .many [1, 2, 3, 0] :=
  ⟨⟨by decide, ⟨[1], rfl, rfl⟩, (triple_verts 0 [7, 8, 9] rfl).inside,
    (triple_index 0 [7, 8, 9]).inside⟩, rfl, by decide, rotate_order, by decide +kernel,
    by decide +kernel⟩

/-! ## C30: reordering re-tiles the arrays -/

/-- After such an order the materials, in the new file order, tile the new arrays. -/
theorem C30_reorder_tiles {vs : Nat} {m : Mesh F} {ix : List Int} {order : List Int}
    {js : List Nat} (inside : Inside vs m) (many : m.index = .many ix)
    (bound : (m.mats.map Mat.vnum).sum ≤ 2 ^ 53) (perm : Permutes m.geoms.length order js) :
    TiledVerts vs (changeGeomsOrder m order).1 ∧ TiledIndex (changeGeomsOrder m order).1 := by
  obtain ⟨m', h, -, -, -, hv, hi, -⟩ := changeGeomsOrder_kept inside many bound perm
  rw [h]
  exact ⟨hv, hi⟩

/-- If the materials tiled the old arrays, both arrays keep their length. -/
theorem C30_lengths_kept {vs : Nat} {m : Mesh F} {ix : List Int} {order : List Int}
    {js : List Nat} (verts : TiledVerts vs m) (index : TiledIndex m) (many : m.index = .many ix)
    (bound : (m.mats.map Mat.vnum).sum ≤ 2 ^ 53) (perm : Permutes m.geoms.length order js) :
    (changeGeomsOrder m order).1.vertices.length = m.vertices.length ∧
      (changeGeomsOrder m order).1.index.elems.length = m.index.elems.length := by
  obtain ⟨m', h, -, -, hp, hv, hi, -⟩ := changeGeomsOrder_kept
    ⟨verts.pos, verts.size, verts.inside, index.inside⟩ many bound perm
  rw [h]
  have h1 := hv.total
  have h2 := hi.total
  rw [hp.1] at h1
  rw [hp.2] at h2
  rw [← verts.total] at h1
  rw [← index.total] at h2
  exact ⟨by exact_mod_cast h1, by exact_mod_cast h2⟩

/-- Starting from a mesh that is not tiled (the two materials are in the wrong order). -/
example : Inside 1 (meshOf 0 [⟨0, 0, 0, 0⟩] 4 2 [[(1, 1, 0, 1)], [(0, 1, 1, 0)]] [7, 8] [5]) ∧
    ¬ TiledVerts 1 (meshOf 0 [⟨0, 0, 0, 0⟩] 4 2 [[(1, 1, 0, 1)], [(0, 1, 1, 0)]] [7, 8] [5]) ∧
    Permutes 2 [0, -1] [0, 1] :=
  ⟨⟨by decide, ⟨[1], rfl, rfl⟩, by decide, by decide⟩, fun h => absurd (h.start 0 _ rfl) (by decide),
    ⟨.cons ⟨by decide, by decide⟩ (.cons ⟨by decide, by decide⟩ .nil), by decide⟩⟩

/-! ## C31: orders of another length -/

/-- An order with more or fewer ids than there are geoms raises `AttributeError`; the mesh is as it
was. -/
theorem C31_wrong_length (m : Mesh F) (order : List Int) (h : order.length ≠ m.geoms.length) :
    changeGeomsOrder m order = (m, some .attributeError) := by
  rw [changeGeomsOrder, if_pos h]

example : [0, 1].length ≠ (triple 0 [7, 8, 9]).geoms.length := by decide

/-! ## C32: identity and inverse orders -/

/-- On a mesh whose materials tile the arrays, an order naming each geom at its own place changes
nothing. -/
theorem C32_identity {vs : Nat} {m : Mesh F} {ix : List Int} {order : List Int}
    (verts : TiledVerts vs m) (index : TiledIndex m) (many : m.index = .many ix)
    (bound : m.vertices.length ≤ 2 ^ 53)
    (ident : List.Forall₂ (Names m.geoms.length) order (List.range m.geoms.length)) :
    changeGeomsOrder m order = (m, none) := by
  have hb := verts.sum_le bound
  obtain ⟨m', h, hm, hk, -, -, -, hd⟩ := changeGeomsOrder_kept
    ⟨verts.pos, verts.size, verts.inside, index.inside⟩ many hb ⟨ident, List.Perm.refl _⟩
  rw [h]
  rw [filterMap_range] at hk hd
  congr 1
  refine restored verts index many hm (hk.imp fun g g' hg => ?_) hd.1 ?_ ?_
  · exact ⟨hg.shape, hg.mats.imp fun a a' ha => ha.fields⟩
  · exact hd.2.1.trans verts.flat
  · rw [hd.2.2]
    rw [many]
    have := index.flat
    rw [many] at this
    exact congrArg OneOrMany.many this

/-- An order, then the inverse order, restores such a mesh: `js'` names at each place the position
the first order moved that geom to. -/
theorem C32_inverse {vs : Nat} {m : Mesh F} {ix : List Int} {order order' : List Int}
    {js js' : List Nat} (verts : TiledVerts vs m) (index : TiledIndex m) (many : m.index = .many ix)
    (bound : m.vertices.length ≤ 2 ^ 53) (perm : Permutes m.geoms.length order js)
    (perm' : Permutes m.geoms.length order' js')
    (inverse : ∀ (k j : Nat), js'[k]? = some j → js[j]? = some k) :
    ∃ m', changeGeomsOrder m order = (m', none) ∧ changeGeomsOrder m' order' = (m, none) := by
  have hb := verts.sum_le bound
  obtain ⟨m', h, hm, hk, hp, hv, hi, hd⟩ := changeGeomsOrder_kept
    ⟨verts.pos, verts.size, verts.inside, index.inside⟩ many hb perm
  refine ⟨m', h, ?_⟩
  have hlen : m'.geoms.length = m.geoms.length := by
    rw [← hk.length_eq]
    exact (permutes_picked perm).length_eq
  obtain ⟨m'', h', hm', hk', hp', hv', hi', hd'⟩ := changeGeomsOrder_kept (m := m') (vs := vs)
    ⟨hv.pos, hv.size, hv.inside, hi.inside⟩ hd.2.2 (by rw [hp.1]; exact hb)
    (by rw [hlen]; exact perm')
  rw [h']
  congr 1
  have hback := picked_back perm perm' inverse hk hlen
  have hmats : List.Forall₂ (MatKept vs m m') m.mats
      ((js'.filterMap fun j => m'.geoms[j]?).flatMap Geom.mats) :=
    forall₂_flatten (hback.imp fun g g' hg => hg.mats)
  refine restored (m' := m'') verts index many ?_ ?_ ?_ ?_ ?_
  · rw [hm', hm]
  · exact (List.Forall₂.trans_rel hback hk').imp fun g g'' ⟨g', h1, h2⟩ =>
      ⟨h2.shape.trans h1.shape, (List.Forall₂.trans_rel h1.mats h2.mats).imp
        fun a a'' ⟨a', e1, e2⟩ => by rw [e2.fields, e1.fields]⟩
  · rw [hd'.1]
    exact retile_congr (hmats.imp fun a a' ha => ha.fields)
  · rw [hd'.2.1, forall₂_flatMap_eq hmats fun a a' ha => ha.verts]
    exact verts.flat
  · rw [hd'.2.2, many]
    have := index.flat
    rw [many] at this
    rw [forall₂_flatMap_eq hmats fun a a' ha => ha.index]
    exact congrArg OneOrMany.many this

example : TiledVerts 1 (triple 0 [7, 8, 9]) ∧ TiledIndex (triple 0 [7, 8, 9]) ∧
    Permutes 3 [1, 2, 0] [1, 2, 0] ∧ Permutes 3 [-1, 0, 1] [2, 0, 1] ∧
    (∀ (k j : Nat), [2, 0, 1][k]? = some j → [1, 2, 0][j]? = some k) ∧
    List.Forall₂ (Names 3) [0, -2, 2] (List.range 3) := by
  refine ⟨triple_verts _ _ rfl, triple_index _ _, rotate_order, rotate_order_back, ?_, ?_⟩
  · rintro (_ | _ | _ | k) j h <;> simp at h <;> subst h <;> rfl
  · exact .cons ⟨by decide, by decide⟩ (.cons ⟨by decide, by decide⟩
      (.cons ⟨by decide, by decide⟩ .nil))

/-! ## C33: bad orders corrupt -/

/-- An order with an id that names no geom raises `IndexError` (once the materials before it have
been gone through without another error). -/
theorem C33_out_of_range_raises {vs : Nat} {m : Mesh F} {ix : List Int} {order : List Int}
    (inside : Inside vs m) (many : m.index = .many ix) (len : order.length = m.geoms.length)
    (bad : ∃ id ∈ order, ∀ j, ¬ Names m.geoms.length id j) :
    (changeGeomsOrder m order).2 = some .indexError := by
  unfold changeGeomsOrder
  rw [if_neg (by omega), (vertexSize_iff _ _).2 inside.size]
  have := reorderGeoms_bad (m := m) inside.pos many order m.geoms ⟨[], []⟩ bad
  simp only
  rcases h : reorderGeoms vs m m.geoms ⟨[], []⟩ order with ⟨gs, s, js, e⟩
  rw [h] at this
  simp only at this
  subst this
  rfl

example : Inside 1 (triple 0 [7, 8, 9]) ∧ [1, 7, 0].length = (triple 0 [7, 8, 9]).geoms.length ∧
    ∃ id ∈ [(1 : Int), 7, 0], ∀ j, ¬ Names (triple 0 [7, 8, 9]).geoms.length id j :=
  ⟨⟨by decide, ⟨[1], rfl, rfl⟩, (triple_verts 0 [7, 8, 9] rfl).inside,
    (triple_index 0 [7, 8, 9]).inside⟩, rfl, 7, by decide, fun j h => by
      have : j < 3 := h.1
      rcases h.2 with h | h
      · omega
      · have : ((triple 0 [7, 8, 9]).geoms.length : Int) = 3 := rfl
        omega⟩

/-- The mesh may then be corrupt: here the order `[1, 7, 0]` raises, and the material of geom 1,
which had vertex `8`, now has vertex `7`, the arrays being the old ones. -/
theorem C33_out_of_range_corrupts :
    ∃ (m : Mesh Nat) (order : List Int), TiledVerts 1 m ∧ TiledIndex m ∧
      order.length = m.geoms.length ∧ (changeGeomsOrder m order).2 = some .indexError ∧
      (changeGeomsOrder m order).1.vertices = m.vertices ∧
      m.mats.map (vertexData 1 m) = [[7], [8], [9]] ∧
      (changeGeomsOrder m order).1.mats.map (vertexData 1 (changeGeomsOrder m order).1) =
        [[7], [7], [9]] :=
  ⟨triple 0 [7, 8, 9], [1, 7, 0], triple_verts _ _ rfl, triple_index _ _, by decide,
    by decide +kernel, by decide +kernel, by decide +kernel, by decide +kernel⟩

/-- A duplicate id is not rejected: with the order `[1, 1, 2]` the call succeeds, geom 0 is gone, and
the data of geom 1, `8` with indices `1, 2`, is replaced by data of geom 0. -/
theorem C33_duplicate_corrupts :
    ∃ (m : Mesh Nat) (order : List Int), TiledVerts 1 m ∧ TiledIndex m ∧
      order.length = m.geoms.length ∧ (changeGeomsOrder m order).2 = none ∧
      m.mats.map (vertexData 1 m) = [[7], [8], [9]] ∧
      m.mats.map (indexData m) = [[0], [1, 2], [3]] ∧
      (changeGeomsOrder m order).1.mats.map (vertexData 1 (changeGeomsOrder m order).1) =
        [[7], [7], [9]] ∧
      (changeGeomsOrder m order).1.mats.map (indexData (changeGeomsOrder m order).1) =
        [[0, 1], [0, 1], [3]] :=
  ⟨triple 0 [7, 8, 9], [1, 1, 2], triple_verts _ _ rfl, triple_index _ _, by decide,
    by decide +kernel, by decide +kernel, by decide +kernel, by decide +kernel, by decide +kernel⟩

end Bf2
