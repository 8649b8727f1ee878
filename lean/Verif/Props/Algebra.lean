import Verif.AlgebraLemmas
import Verif.Props.Rotate
import Verif.Props.Merge

/-!
# Combinations of editing methods (C76 to C82)

In which order the editing methods are called, and whether on a mesh or on its parts, does not
matter.  C76 to C80 are about floats as they are (no law of arithmetic is used), C81 and C82 about
exact arithmetic.
-/

namespace Bf2

variable {F : Type}

/-! ## C76: geometric edits commute with reordering -/

/-- Moving a mesh and then reordering its geoms gives the same mesh as reordering, then moving. -/
theorem C76_translate_reorder [FArith F] {vs : Nat} {m : Mesh F} {ix : List Int} {order : List Int}
    {js : List Nat} {a : VAttr} {o : Nat} {d : List F} (verts : TiledVerts vs m)
    (index : TiledIndex m) (many : m.index = .many ix) (bound : m.vertices.length ≤ 2 ^ 53)
    (perm : Permutes m.geoms.length order js) (first : FirstPosition m.vattrs a)
    (start : StartsAt m.vertformat a o) (fits : o + d.length ≤ vs) :
    ∃ m1 m2 x, translate m d = (m1, none) ∧ changeGeomsOrder m order = (m2, none) ∧
      changeGeomsOrder m1 order = (x, none) ∧ translate m2 d = (x, none) :=
  edit_reorder (translate_edits first start fits) verts index many bound perm

/-- The same for rotations. -/
theorem C76_rotate_reorder [FArith F] [Libm F] {vs : Nat} {m : Mesh F} {ix : List Int}
    {order : List Int} {js : List Nat} (verts : TiledVerts vs m) (index : TiledIndex m)
    (many : m.index = .many ix) (bound : m.vertices.length ≤ 2 ^ 53)
    (perm : Permutes m.geoms.length order js) (float3 : Float3Vectors vs m) (y p r : F)
    (rest : List F) (defined : ∀ a ∈ [y, p, r], (Libm.cos (Libm.radians a)).isSome ∧
      (Libm.sin (Libm.radians a)).isSome) :
    ∃ m1 m2 x, rotate m (y :: p :: r :: rest) = (m1, none) ∧
      changeGeomsOrder m order = (m2, none) ∧ changeGeomsOrder m1 order = (x, none) ∧
      rotate m2 (y :: p :: r :: rest) = (x, none) := by
  obtain ⟨cy, hcy⟩ := Option.isSome_iff_exists.1 (defined y (by simp)).1
  obtain ⟨sy, hsy⟩ := Option.isSome_iff_exists.1 (defined y (by simp)).2
  obtain ⟨cp, hcp⟩ := Option.isSome_iff_exists.1 (defined p (by simp)).1
  obtain ⟨sp, hsp⟩ := Option.isSome_iff_exists.1 (defined p (by simp)).2
  obtain ⟨cr, hcr⟩ := Option.isSome_iff_exists.1 (defined r (by simp)).1
  obtain ⟨sr, hsr⟩ := Option.isSome_iff_exists.1 (defined r (by simp)).2
  exact edit_reorder (rotate_edits verts.pos float3 ⟨⟨hcy, hsy⟩, ⟨hcp, hsp⟩, ⟨hcr, hsr⟩⟩) verts index
    many bound perm

/-- Three vertices with position, normal and a texture coordinate pair, in two geoms. -/
def turnable (z : F) (vs : List F) : Mesh F :=
  meshOf z vecAttrs 32 3 [[(0, 1, 0, 1)], [(1, 1, 1, 2), (2, 1, 3, 3)]] vs [0, 0, 0, 0, 0, 0]

theorem turnable_verts (z : F) (vs : List F) (h : vs.length = 24) :
    TiledVerts 8 (turnable z vs) where
  pos := by decide
  size := ⟨[3, 3, 2], rfl, rfl⟩
  nonneg := by simp [turnable, meshOf, geomOf, matOf, Mesh.mats, Geom.mats]
  start := starts_of rfl
  total := by
    change (vs.length : Int) = _
    rw [h]; rfl

theorem turnable_index (z : F) (vs : List F) : TiledIndex (turnable z vs) where
  nonneg := by simp [turnable, meshOf, geomOf, matOf, Mesh.mats, Geom.mats]
  start := starts_of rfl
  total := rfl

theorem turnable_float3 (z : F) (vs : List F) : Float3Vectors 8 (turnable z vs) :=
  rotatable_float3 z vs

theorem turnable_first (z : F) (vs : List F) :
    FirstPosition (turnable z vs).vattrs ⟨0, 0, 2, 0⟩ :=
  ⟨[], _, rfl, by decide, by simp⟩

theorem swap_order : Permutes 2 [1, 0] [1, 0] where
  names := by repeat' constructor
  perm := by decide

/-- Both edits really change the sample. -/
example : ∃ (m : Mesh F64) (d : List F64), TiledVerts 8 m ∧ TiledIndex m ∧ (∃ ix, m.index = .many ix) ∧
    m.vertices.length ≤ 2 ^ 53 ∧ Permutes m.geoms.length [1, 0] [1, 0] ∧
    FirstPosition m.vattrs ⟨0, 0, 2, 0⟩ ∧ StartsAt m.vertformat ⟨0, 0, 2, 0⟩ 0 ∧
    0 + d.length ≤ 8 ∧ (translate m d).1 ≠ m ∧ (changeGeomsOrder m [1, 0]).1 ≠ m :=
  ⟨turnable (flt 0) ((List.range 24).map flt), [flt 1, flt 2, flt 3], turnable_verts _ _ rfl,
    turnable_index _ _, ⟨_, rfl⟩, by decide, swap_order, turnable_first _ _, by decide, by decide,
    by decide +kernel, by decide +kernel⟩

attribute [local instance] quarterTurn in
example : ∃ (m : Mesh F64) (y p r : F64), TiledVerts 8 m ∧ TiledIndex m ∧ (∃ ix, m.index = .many ix) ∧
    m.vertices.length ≤ 2 ^ 53 ∧ Permutes m.geoms.length [1, 0] [1, 0] ∧ Float3Vectors 8 m ∧
    (∀ a ∈ [y, p, r], (Libm.cos (Libm.radians a)).isSome ∧ (Libm.sin (Libm.radians a)).isSome) ∧
    (rotate m [y, p, r]).1 ≠ m ∧ (changeGeomsOrder m [1, 0]).1 ≠ m :=
  ⟨turnable (flt 0) ((List.range 24).map flt), flt 0, flt 0, flt 0, turnable_verts _ _ rfl,
    turnable_index _ _, ⟨_, rfl⟩, by decide, swap_order, turnable_float3 _ _, fun _ _ => ⟨rfl, rfl⟩,
    by decide +kernel, by decide +kernel⟩

/-! ## C77: geometric edits distribute over merge -/

/-- Moving both meshes and then merging them gives the same mesh as merging, then moving; in
particular the merge of the moved meshes succeeds when that of the meshes does. -/
theorem C77_translate_merge [FArith F] {vs : Nat} {m o m' : Mesh F} {ix ox : List Int} {a : VAttr}
    {k : Nat} {d : List F} (verts : TiledVerts vs m) (index : TiledIndex m)
    (verts' : TiledVerts vs o) (index' : TiledIndex o) (many : m.index = .many ix)
    (many' : o.index = .many ox) (same : o.vertformat = m.vertformat)
    (first : FirstPosition m.vattrs a) (start : StartsAt m.vertformat a k)
    (fits : k + d.length ≤ vs) (ok : merge m o = (m', .ok .done)) :
    ∃ m1 o1 x, translate m d = (m1, none) ∧ translate o d = (o1, none) ∧
      merge m1 o1 = (x, .ok .done) ∧ translate m' d = (x, none) :=
  edit_merge (translate_edits first start fits) same verts index verts' index' many many' ok

/-- The same for rotations. -/
theorem C77_rotate_merge [FArith F] [Libm F] {vs : Nat} {m o m' : Mesh F} {ix ox : List Int}
    (verts : TiledVerts vs m) (index : TiledIndex m) (verts' : TiledVerts vs o)
    (index' : TiledIndex o) (many : m.index = .many ix) (many' : o.index = .many ox)
    (same : o.vertformat = m.vertformat) (float3 : Float3Vectors vs m) (y p r : F) (rest : List F)
    (defined : ∀ a ∈ [y, p, r], (Libm.cos (Libm.radians a)).isSome ∧
      (Libm.sin (Libm.radians a)).isSome) (ok : merge m o = (m', .ok .done)) :
    ∃ m1 o1 x, rotate m (y :: p :: r :: rest) = (m1, none) ∧
      rotate o (y :: p :: r :: rest) = (o1, none) ∧ merge m1 o1 = (x, .ok .done) ∧
      rotate m' (y :: p :: r :: rest) = (x, none) := by
  obtain ⟨cy, hcy⟩ := Option.isSome_iff_exists.1 (defined y (by simp)).1
  obtain ⟨sy, hsy⟩ := Option.isSome_iff_exists.1 (defined y (by simp)).2
  obtain ⟨cp, hcp⟩ := Option.isSome_iff_exists.1 (defined p (by simp)).1
  obtain ⟨sp, hsp⟩ := Option.isSome_iff_exists.1 (defined p (by simp)).2
  obtain ⟨cr, hcr⟩ := Option.isSome_iff_exists.1 (defined r (by simp)).1
  obtain ⟨sr, hsr⟩ := Option.isSome_iff_exists.1 (defined r (by simp)).2
  exact edit_merge (rotate_edits verts.pos float3 ⟨⟨hcy, hsy⟩, ⟨hcp, hsp⟩, ⟨hcr, hsr⟩⟩) same verts
    index verts' index' many many' ok

/-- Two different meshes that merge. -/
example : ∃ (m o : Mesh F64), m ≠ o ∧ TiledVerts 8 m ∧ TiledIndex m ∧ TiledVerts 8 o ∧
    TiledIndex o ∧ (∃ ix, m.index = .many ix) ∧ (∃ ox, o.index = .many ox) ∧ o.vertformat = m.vertformat ∧
    FirstPosition m.vattrs ⟨0, 0, 2, 0⟩ ∧ StartsAt m.vertformat ⟨0, 0, 2, 0⟩ 0 ∧
    Float3Vectors 8 m ∧ (merge m o).2 = .ok .done :=
  ⟨turnable (flt 0) ((List.range 24).map flt), turnable (flt 0) ((List.range 24).map fun _ => flt 7),
    by decide +kernel, turnable_verts _ _ rfl, turnable_index _ _, turnable_verts _ _ rfl,
    turnable_index _ _, ⟨_, rfl⟩, ⟨_, rfl⟩, rfl, turnable_first _ _, by decide, turnable_float3 _ _,
    by decide +kernel⟩

/-! ## C78: orders compose -/

/-- Reordering twice is reordering once, by the composed order: position `k` of `order''` names the
geom that `order` names at the place `order'` names at `k`. -/
theorem C78_orders_compose {vs : Nat} {m : Mesh F} {ix : List Int}
    {order order' order'' : List Int} {js js' js'' : List Nat} (inside : Inside vs m)
    (many : m.index = .many ix) (bound : (m.mats.map Mat.vnum).sum ≤ 2 ^ 53)
    (perm : Permutes m.geoms.length order js) (perm' : Permutes m.geoms.length order' js')
    (perm'' : Permutes m.geoms.length order'' js'')
    (composed : ∀ (k j : Nat), js'[k]? = some j → js''[k]? = js[j]?) :
    ∃ m' x, changeGeomsOrder m order = (m', none) ∧ changeGeomsOrder m' order' = (x, none) ∧
      changeGeomsOrder m order'' = (x, none) :=
  reorder_compose inside many bound perm perm' perm'' composed

/-- `[1, 2, 0]` then `[1, 0, 2]` is `[2, 1, 0]`, and not the other way round. -/
example : ∃ m : Mesh Nat, Inside 1 m ∧ (∃ ix, m.index = .many ix) ∧
    (m.mats.map Mat.vnum).sum ≤ 2 ^ 53 ∧ Permutes m.geoms.length [1, 2, 0] [1, 2, 0] ∧
    Permutes m.geoms.length [1, 0, 2] [1, 0, 2] ∧ Permutes m.geoms.length [2, 1, 0] [2, 1, 0] ∧
    (∀ (k j : Nat), [1, 0, 2][k]? = some j → [2, 1, 0][k]? = [1, 2, 0][j]?) ∧
    changeGeomsOrder (changeGeomsOrder m [1, 0, 2]).1 [1, 2, 0] ≠
      changeGeomsOrder (changeGeomsOrder m [1, 2, 0]).1 [1, 0, 2] :=
  ⟨triple 0 [7, 8, 9], ⟨by decide, ⟨[1], rfl, rfl⟩, by decide, by decide⟩, ⟨_, rfl⟩, by decide,
    rotate_order, ⟨by repeat' constructor, by decide⟩, ⟨by repeat' constructor, by decide⟩, by
      intro k j h
      match k with
      | 0 => simp at h; subst h; rfl
      | 1 => simp at h; subst h; rfl
      | 2 => simp at h; subst h; rfl
      | k + 3 => simp at h, by decide +kernel⟩

/-! ## C79: reordering distributes over merge -/

/-- Reordering both meshes and then merging them gives the same mesh as merging, then reordering. -/
theorem C79_reorder_merge {vs : Nat} {m o m' : Mesh F} {ix ox : List Int} {order : List Int}
    {js : List Nat} (inside : Inside vs m) (inside' : Inside vs o) (many : m.index = .many ix)
    (many' : o.index = .many ox)
    (bound : (m.mats.map Mat.vnum).sum + (o.mats.map Mat.vnum).sum ≤ 2 ^ 53)
    (perm : Permutes m.geoms.length order js) (ok : merge m o = (m', .ok .done)) :
    ∃ m1 o1 x, changeGeomsOrder m order = (m1, none) ∧ changeGeomsOrder o order = (o1, none) ∧
      merge m1 o1 = (x, .ok .done) ∧ changeGeomsOrder m' order = (x, none) :=
  reorder_merge inside inside' many many' bound perm ok

example : Inside 1 mergeA ∧ Inside 1 mergeB ∧ (∃ ix, mergeA.index = .many ix) ∧ (∃ ox, mergeB.index = .many ox) ∧
    (mergeA.mats.map Mat.vnum).sum + (mergeB.mats.map Mat.vnum).sum ≤ 2 ^ 53 ∧
    Permutes mergeA.geoms.length [1, 0] [1, 0] ∧ (merge mergeA mergeB).2 = .ok .done ∧
    (changeGeomsOrder mergeA [1, 0]).1 ≠ mergeA :=
  ⟨mergeA_inside, mergeB_inside, ⟨_, rfl⟩, ⟨_, rfl⟩, by decide, swap_order, by decide +kernel,
    by decide +kernel⟩

/-! ## C80: the two directions of a merge -/

/-- When `merge` succeeds in both directions, each material draws the same corners, those of the
two meshes in swapped order. -/
theorem C80_same_corners {vs : Nat} {m o m' o' : Mesh F} {ix ox : List Int} (inside : Inside vs m)
    (inside' : Inside vs o) (many : m.index = .many ix) (many' : o.index = .many ox)
    (ok : merge m o = (m', .ok .done)) (ok' : merge o m = (o', .ok .done)) {i : Nat}
    {a b a' b' : Mat F} (ha : m.mats[i]? = some a) (hb : o.mats[i]? = some b)
    (ha' : m'.mats[i]? = some a') (hb' : o'.mats[i]? = some b')
    (ina : ∀ v ∈ indexData m a, 0 ≤ v ∧ v < a.vnum)
    (inb : ∀ v ∈ indexData o b, 0 ≤ v ∧ v < b.vnum) :
    ∃ s t, (indexData m' a').map (corner vs (vertexData vs m' a')) = s ++ t ∧
      (indexData o' b').map (corner vs (vertexData vs o' b')) = t ++ s ∧
      s.length = (indexData m a).length ∧ t.length = (indexData o b).length :=
  ⟨_, _, C36_corners_preserved inside inside' many many' ok ha hb ha' ina inb,
    C36_corners_preserved inside' inside many' many ok' hb ha hb' inb ina, by simp, by simp⟩

/-- A merge may succeed in one direction and raise `OverflowError` in the other. -/
theorem C80_one_direction_overflows :
    ∃ m o : Mesh Nat, Inside 1 m ∧ Inside 1 o ∧ canMerge m o = .ok true ∧ canMerge o m = .ok true ∧
      (merge m o).2 = .ok .done ∧ (merge o m).2 = .error .overflowError :=
  ⟨mergeC, mergeA, mergeC_inside, mergeA_inside, by decide, by decide, by decide +kernel,
    by decide +kernel⟩

example : Inside 1 mergeA ∧ Inside 1 mergeB ∧ (merge mergeA mergeB).2 = .ok .done ∧
    (merge mergeB mergeA).2 = .ok .done ∧
    (∀ a ∈ mergeA.mats, ∀ v ∈ indexData mergeA a, 0 ≤ v ∧ v < a.vnum) ∧
    (∀ b ∈ mergeB.mats, ∀ v ∈ indexData mergeB b, 0 ≤ v ∧ v < b.vnum) ∧
    (merge mergeA mergeB).1 ≠ (merge mergeB mergeA).1 :=
  ⟨mergeA_inside, mergeB_inside, by decide +kernel, by decide +kernel, by decide, by decide,
    by decide +kernel⟩

/-! ## C81: rotations compose, in exact arithmetic -/

section exact
open Real

theorem Vec3.fn_injective {v w : Vec3 F} (h : v.fn = w.fn) : v = w := by
  obtain ⟨x, y, z⟩ := v
  obtain ⟨a, b, c⟩ := w
  have h0 := congrFun h 0
  have h1 := congrFun h 1
  have h2 := congrFun h 2
  simp only [Vec3.fn, Matrix.cons_val_zero, Matrix.cons_val_one, Matrix.cons_val] at h0 h1 h2
  rw [h0, h1, h2]

theorem rotate_real {vs : Nat} {m : Mesh ℝ} (tiled : TiledVerts vs m)
    (float3 : Float3Vectors vs m) (yaw pitch roll : ℝ) (rest : List ℝ) :
    ∃ l, rotate m (yaw :: pitch :: roll :: rest) = ({ m with vertices := l }, none) ∧
      l.length = m.vertices.length ∧
      (∀ v c, c < vs → (∀ a ∈ m.vattrs, VectorAttr a → ∀ o, StartsAt m.vertformat a o →
        c < o ∨ o + 3 ≤ c) → l[v * vs + c]? = m.vertices[v * vs + c]?) ∧
      (m.vattrs.Pairwise (Apart m.vertformat) → ∀ a ∈ m.vattrs, VectorAttr a →
        ∀ o, StartsAt m.vertformat a o → ∀ v, vec3At l (v * vs + o) =
          (vec3At m.vertices (v * vs + o)).map (rotMap (cos (deg yaw)) (sin (deg yaw))
            (cos (deg pitch)) (sin (deg pitch)) (cos (deg roll)) (sin (deg roll)))) :=
  rotate_tiled (rest := rest) tiled float3 (y := yaw) (p := pitch) (r := roll)
    ⟨⟨rfl, rfl⟩, ⟨rfl, rfl⟩, ⟨rfl, rfl⟩⟩

theorem TiledVerts.set {vs : Nat} {m : Mesh F} (h : TiledVerts vs m) {l : List F}
    (hl : l.length = m.vertices.length) : TiledVerts vs { m with vertices := l } :=
  ⟨h.pos, h.size, h.nonneg, h.start, by
    change (l.length : Int) = _
    rw [hl]; exact h.total⟩

/-- Rotating twice is rotating once, if the product of the two rotation matrices is the third. -/
theorem C81_rotations_compose {vs : Nat} {m : Mesh ℝ} (tiled : TiledVerts vs m)
    (float3 : Float3Vectors vs m) (apart : m.vattrs.Pairwise (Apart m.vertformat))
    {y p r y' p' r' y'' p'' r'' : ℝ} {rest rest' rest'' : List ℝ}
    (product : rotMat y' p' r' * rotMat y p r = rotMat y'' p'' r'') :
    ∃ m1 x, rotate m (y :: p :: r :: rest) = (m1, none) ∧
      rotate m1 (y' :: p' :: r' :: rest') = (x, none) ∧
      rotate m (y'' :: p'' :: r'' :: rest'') = (x, none) := by
  obtain ⟨l, h1, hl, ho, hv⟩ := rotate_real tiled float3 y p r rest
  obtain ⟨l', h1', hl', ho', hv'⟩ := rotate_real (tiled.set hl) float3 y' p' r' rest'
  obtain ⟨k, h2, hk, hok, hvk⟩ := rotate_real tiled float3 y'' p'' r'' rest''
  refine ⟨_, _, h1, h1', ?_⟩
  rw [h2]
  congr 1
  obtain ⟨n, hn, -⟩ := tiled.count
  have : k = l' := by
    refine vertices_ext float3 (hk.trans hn) (hl'.trans (hl.trans hn)) ?_ ?_
    · intro v c hc hcov
      rw [hok v c hc hcov, ho' v c hc hcov, ho v c hc hcov]
    · intro a ha hav o hs v _
      have e := hv' apart a ha hav o hs v
      change vec3At l' _ = (vec3At l _).map _ at e
      rw [hvk apart a ha hav o hs v, e, hv apart a ha hav o hs v, Option.map_map]
      congr 1
      funext x
      apply Vec3.fn_injective
      rw [Function.comp, rotMap_real, rotMap_real, rotMap_real, Matrix.mulVec_mulVec, product]
  rw [this]

theorem yawMat_add (s t : ℝ) : yawMat s * yawMat t = yawMat (t + s) := by
  ext i j
  fin_cases i <;> fin_cases j <;>
    simp [yawMat, Matrix.mul_apply, Fin.sum_univ_three, sin_add, cos_add] <;> ring

theorem pitchMat_add (s t : ℝ) : pitchMat s * pitchMat t = pitchMat (t + s) := by
  ext i j
  fin_cases i <;> fin_cases j <;>
    simp [pitchMat, Matrix.mul_apply, Fin.sum_univ_three, sin_add, cos_add] <;> ring

theorem rollMat_add (s t : ℝ) : rollMat s * rollMat t = rollMat (t + s) := by
  ext i j
  fin_cases i <;> fin_cases j <;>
    simp [rollMat, Matrix.mul_apply, Fin.sum_univ_three, sin_add, cos_add] <;> ring

theorem yawMat_zero : yawMat 0 = 1 := by
  ext i j
  fin_cases i <;> fin_cases j <;> simp [yawMat]

theorem pitchMat_zero : pitchMat 0 = 1 := by
  ext i j
  fin_cases i <;> fin_cases j <;> simp [pitchMat]

theorem rollMat_zero : rollMat 0 = 1 := by
  ext i j
  fin_cases i <;> fin_cases j <;> simp [rollMat]

theorem deg_zero : deg 0 = 0 := zero_mul _

theorem deg_add (s t : ℝ) : deg s + deg t = deg (s + t) := (add_mul _ _ _).symm

/-- Rotations about one axis add up. -/
theorem C81_one_axis {vs : Nat} {m : Mesh ℝ} (tiled : TiledVerts vs m)
    (float3 : Float3Vectors vs m) (apart : m.vattrs.Pairwise (Apart m.vertformat)) (s t : ℝ) :
    (∃ m1 x, rotate m [s, 0, 0] = (m1, none) ∧ rotate m1 [t, 0, 0] = (x, none) ∧
      rotate m [s + t, 0, 0] = (x, none)) ∧
    (∃ m1 x, rotate m [0, s, 0] = (m1, none) ∧ rotate m1 [0, t, 0] = (x, none) ∧
      rotate m [0, s + t, 0] = (x, none)) ∧
    (∃ m1 x, rotate m [0, 0, s] = (m1, none) ∧ rotate m1 [0, 0, t] = (x, none) ∧
      rotate m [0, 0, s + t] = (x, none)) := by
  refine ⟨C81_rotations_compose tiled float3 apart ?_, C81_rotations_compose tiled float3 apart ?_,
    C81_rotations_compose tiled float3 apart ?_⟩
  all_goals
    unfold rotMat
    simp only [deg_zero, yawMat_zero, pitchMat_zero, rollMat_zero, mul_one, one_mul, yawMat_add,
      pitchMat_add, rollMat_add, deg_add]

/-- A rotation by three angles is undone by undoing yaw, then pitch, then roll. -/
theorem C81_undone {vs : Nat} {m : Mesh ℝ} (tiled : TiledVerts vs m)
    (float3 : Float3Vectors vs m) (apart : m.vattrs.Pairwise (Apart m.vertformat)) (y p r : ℝ) :
    ∃ m1 m2 m3, rotate m [y, p, r] = (m1, none) ∧ rotate m1 [-y, 0, 0] = (m2, none) ∧
      rotate m2 [0, -p, 0] = (m3, none) ∧ rotate m3 [0, 0, -r] = (m, none) := by
  obtain ⟨m1, m2, h1, h2, h12⟩ := C81_rotations_compose (rest := []) (rest' := []) (rest'' := [])
    tiled float3 apart (y := y) (p := p) (r := r) (y' := -y) (p' := 0) (r' := 0) (y'' := 0)
    (p'' := p) (r'' := r) (by
      unfold rotMat
      rw [deg_zero, pitchMat_zero, rollMat_zero, yawMat_zero, mul_one, mul_one, one_mul,
        Matrix.mul_assoc (yawMat _), ← Matrix.mul_assoc (yawMat (deg (-y))), yawMat_add, deg_add,
        add_neg_cancel, deg_zero, yawMat_zero, one_mul])
  obtain ⟨n2, m3, h2', h3, h23⟩ := C81_rotations_compose (rest := []) (rest' := []) (rest'' := [])
    tiled float3 apart (y := 0) (p := p) (r := r) (y' := 0) (p' := -p) (r' := 0) (y'' := 0)
    (p'' := 0) (r'' := r) (by
      unfold rotMat
      rw [deg_zero, pitchMat_zero, rollMat_zero, yawMat_zero, mul_one, one_mul, one_mul, one_mul,
        ← Matrix.mul_assoc, pitchMat_add, deg_add, add_neg_cancel, deg_zero, pitchMat_zero])
  obtain ⟨n3, m4, h3', h4, h34⟩ := C81_rotations_compose (rest := []) (rest' := []) (rest'' := [])
    tiled float3 apart (y := 0) (p := 0) (r := r) (y' := 0) (p' := 0) (r' := -r) (y'' := 0)
    (p'' := 0) (r'' := 0) (by
      unfold rotMat
      rw [deg_zero, pitchMat_zero, rollMat_zero, yawMat_zero, mul_one, one_mul, one_mul,
        rollMat_add, deg_add, add_neg_cancel, deg_zero, rollMat_zero, mul_one])
  rw [h12] at h2'
  obtain ⟨rfl, -⟩ := Prod.mk.inj h2'
  rw [h23] at h3'
  obtain ⟨rfl, -⟩ := Prod.mk.inj h3'
  rw [C27_zero_rotation tiled float3] at h34
  obtain ⟨rfl, -⟩ := Prod.mk.inj h34
  exact ⟨_, _, _, h1, h2, h3, h4⟩

/-- A full turn about any axis, or any number of them, changes nothing. -/
theorem C81_full_turns {vs : Nat} {m : Mesh ℝ} (tiled : TiledVerts vs m)
    (float3 : Float3Vectors vs m) (apart : m.vattrs.Pairwise (Apart m.vertformat)) (i j k : Int) :
    rotate m [360 * i, 360 * j, 360 * k] = (m, none) := by
  have hd : ∀ n : Int, deg (360 * n) = n * (2 * π) := fun n => by unfold deg; ring
  obtain ⟨n1, x, h1, h2, h3⟩ := C81_rotations_compose (rest := []) (rest' := []) (rest'' := [])
    tiled float3 apart (y := 0) (p := 0) (r := 0) (y' := 0) (p' := 0) (r' := 0)
    (y'' := 360 * i) (p'' := 360 * j) (r'' := 360 * k) (by
      have e : rotMat (360 * i) (360 * j) (360 * k) = rotMat 0 0 0 := by
        unfold rotMat yawMat pitchMat rollMat
        simp only [hd, deg_zero, cos_int_mul_two_pi, cos_zero, sin_zero]
        have : ∀ n : Int, sin (n * (2 * π)) = 0 := fun n => by
          have := sin_add_int_mul_two_pi 0 n
          rwa [zero_add, sin_zero] at this
        simp only [this]
      rw [e]
      unfold rotMat
      simp only [deg_zero, yawMat_zero, pitchMat_zero, rollMat_zero, mul_one])
  rw [C27_zero_rotation tiled float3] at h1
  obtain ⟨rfl, -⟩ := Prod.mk.inj h1
  rw [C27_zero_rotation tiled float3] at h2
  obtain ⟨rfl, -⟩ := Prod.mk.inj h2
  exact h3

/-- Rotating back by the negated angles in one call does not undo a rotation. -/
theorem C81_negated_angles_do_not_undo :
    ∃ (m m1 : Mesh ℝ), TiledVerts 8 m ∧ Float3Vectors 8 m ∧
      m.vattrs.Pairwise (Apart m.vertformat) ∧ rotate m [90, 90, 0] = (m1, none) ∧
      rotate m1 [-90, -90, 0] ≠ (m, none) := by
  have ht := rotatable_tiled (0 : ℝ) [0, 1, 0, 0, 0, 0, 0, 0, 0, 0, 0, 0, 0, 0, 0, 0] rfl
  have hf := rotatable_float3 (0 : ℝ) [0, 1, 0, 0, 0, 0, 0, 0, 0, 0, 0, 0, 0, 0, 0, 0]
  have hap := rotatable_apart (0 : ℝ) [0, 1, 0, 0, 0, 0, 0, 0, 0, 0, 0, 0, 0, 0, 0, 0]
  obtain ⟨l, h1, hl, -, hv⟩ := rotate_real ht hf 90 90 0 []
  obtain ⟨l', h1', -, -, hv'⟩ := rotate_real (ht.set hl) hf (-90) (-90) 0 []
  refine ⟨_, _, ht, hf, hap, h1, ?_⟩
  rw [h1']
  intro h
  have hl' : l' = [0, 1, 0, 0, 0, 0, 0, 0, 0, 0, 0, 0, 0, 0, 0, 0] :=
    congrArg (fun m : Mesh ℝ × Option Err => m.1.vertices) h
  have e := hv' hap ⟨0, 0, 2, 0⟩ (by simp [rotatable, meshOf, vecAttrs]) (by decide) 0
    (show StartsAt 4 _ _ by decide) 0
  change vec3At l' _ = (vec3At l _).map _ at e
  rw [hv hap ⟨0, 0, 2, 0⟩ (by simp [rotatable, meshOf, vecAttrs]) (by decide) 0
    (show StartsAt 4 _ _ by decide) 0,
    hl'] at e
  have hc : deg 90 = π / 2 := by unfold deg; ring
  have hc' : deg (-90) = -(π / 2) := by unfold deg; ring
  simp [rotatable, meshOf, vec3At, rotMap, rotYaw, rotPitch, rotRoll, add_real, sub_real, mul_real,
    hc, hc', deg_zero] at e

example : ∃ m : Mesh ℝ, TiledVerts 8 m ∧ Float3Vectors 8 m ∧
    m.vattrs.Pairwise (Apart m.vertformat) ∧ m.vertices ≠ [] ∧
    rotMat 20 0 0 * rotMat 10 0 0 = rotMat 30 0 0 :=
  ⟨rotatable 0 [0, 1, 0, 0, 0, 0, 0, 0, 0, 0, 0, 0, 0, 0, 0, 0], rotatable_tiled _ _ rfl,
    rotatable_float3 _ _, rotatable_apart _ _, by simp [rotatable, meshOf], by
      unfold rotMat
      simp only [deg_zero, pitchMat_zero, rollMat_zero, mul_one, yawMat_add, deg_add]
      norm_num⟩

/-! ## C82: rotating a moved mesh, in exact arithmetic -/

/-- Moving by `d` and then rotating gives the same mesh as rotating and then moving by the rotated
`d`. -/
theorem C82_rotate_after_translate {vs : Nat} {m : Mesh ℝ} {a : VAttr} {o : Nat}
    (tiled : TiledVerts vs m) (float3 : Float3Vectors vs m)
    (apart : m.vattrs.Pairwise (Apart m.vertformat)) (first : FirstPosition m.vattrs a)
    (start : StartsAt m.vertformat a o) (yaw pitch roll : ℝ) (rest : List ℝ) {d d' : Vec3 ℝ}
    (rotated : d'.fn = (rotMat yaw pitch roll).mulVec d.fn) :
    ∃ m1 m2 x, translate m [d.x, d.y, d.z] = (m1, none) ∧
      rotate m1 (yaw :: pitch :: roll :: rest) = (x, none) ∧
      rotate m (yaw :: pitch :: roll :: rest) = (m2, none) ∧
      translate m2 [d'.x, d'.y, d'.z] = (x, none) := by
  have hav : VectorAttr a := by
    obtain ⟨_, _, -, h, -⟩ := first; exact ⟨h.2, .inl h.1⟩
  have ham : a ∈ m.vattrs := by
    obtain ⟨_, _, h, -⟩ := first; rw [h]; simp
  obtain ⟨-, o', hs', hov⟩ := float3 a ham hav
  obtain rfl := startsAt_unique start hs'
  have hml : ∀ (d : List ℝ) (l : List ℝ), (movedAll vs o d l).length = l.length :=
    fun d l => movedAll_length _ _ _ _
  have e1 := translate_tiled (d := [d.x, d.y, d.z]) tiled first start hov
  obtain ⟨l, h1, hl, ho, hv⟩ := rotate_real (tiled.set (hml [d.x, d.y, d.z] m.vertices)) float3 yaw
    pitch roll rest
  obtain ⟨k, h2, hk, hok, hvk⟩ := rotate_real tiled float3 yaw pitch roll rest
  have e2 := translate_tiled (d := [d'.x, d'.y, d'.z]) (tiled.set hk) first start hov
  refine ⟨_, _, _, e1, h1, h2, ?_⟩
  rw [e2]
  congr 1
  obtain ⟨n, hn, -⟩ := tiled.count
  have : movedAll vs o [d'.x, d'.y, d'.z] k = l := by
    refine vertices_ext float3 ((hml _ _).trans (hk.trans hn))
      (hl.trans ((hml _ _).trans hn)) ?_ ?_
    · intro v c hc hcov
      have hm : ∀ (x y z : ℝ) (q : List ℝ),
          (movedAll vs o [x, y, z] q)[v * vs + c]? = q[v * vs + c]? := by
        intro x y z q
        rw [movedAll_getElem? hc]
        have : moved o [x, y, z] c = id := by
          funext t
          unfold moved
          have := hcov a ham hav o start
          split
          · rw [List.getElem?_eq_none (by simp; omega)]; rfl
          · rfl
        rw [this, Option.map_id]; rfl
      rw [hm, hok v c hc hcov, ho v c hc hcov]
      exact (hm _ _ _ _).symm
    · intro b hb hbv q hq v _
      have e := hv apart b hb hbv q hq v
      change vec3At l _ = (vec3At (movedAll vs o [d.x, d.y, d.z] m.vertices) _).map _ at e
      have hq3 : q + 3 ≤ vs := by
        obtain ⟨-, q', hq', h⟩ := float3 b hb hbv
        rwa [startsAt_unique hq hq']
      rw [e]
      by_cases hqo : q = o
      · subst hqo
        rw [vec3At_moved hq3, vec3At_moved hq3, hvk apart b hb hbv q hq v, Option.map_map,
          Option.map_map]
        congr 1
        funext x
        apply Vec3.fn_injective
        have hadd : ∀ s t : Vec3 ℝ, (⟨FArith.add s.x t.x, FArith.add s.y t.y, FArith.add s.z t.z⟩ :
            Vec3 ℝ).fn = s.fn + t.fn := by
          intro s t
          ext i
          fin_cases i <;> rfl
        change (⟨FArith.add (rotMap _ _ _ _ _ _ x).x d'.x, FArith.add (rotMap _ _ _ _ _ _ x).y d'.y,
          FArith.add (rotMap _ _ _ _ _ _ x).z d'.z⟩ : Vec3 ℝ).fn = (rotMap _ _ _ _ _ _ _).fn
        rw [hadd, rotMap_real, rotMap_real, hadd, rotated, Matrix.mulVec_add]
      · have hap : o + 3 ≤ q ∨ q + 3 ≤ o := by
          have hab : a ≠ b := by rintro rfl; exact hqo (startsAt_unique hq start)
          rcases pairwise_pair apart ham hb hab with h | h
          · exact h hav hbv o q start hq
          · exact (h hbv hav q o hq start).symm
        rw [vec3At_unmoved hq3 hap, vec3At_unmoved hq3 hap, hvk apart b hb hbv q hq v]
  rw [this]

example : ∃ (m : Mesh ℝ) (d d' : Vec3 ℝ), TiledVerts 8 m ∧ Float3Vectors 8 m ∧
    m.vattrs.Pairwise (Apart m.vertformat) ∧ FirstPosition m.vattrs ⟨0, 0, 2, 0⟩ ∧
    StartsAt m.vertformat ⟨0, 0, 2, 0⟩ 0 ∧ d'.fn = (rotMat 90 0 0).mulVec d.fn ∧ d ≠ d' :=
  ⟨rotatable 0 [0, 1, 0, 0, 0, 0, 0, 0, 0, 0, 0, 0, 0, 0, 0, 0], ⟨1, 2, 3⟩, ⟨3, 2, -1⟩,
    rotatable_tiled _ _ rfl, rotatable_float3 _ _, rotatable_apart _ _,
    ⟨[], _, rfl, by decide, by simp⟩, by decide, by
      have hc : deg 90 = π / 2 := by unfold deg; ring
      unfold rotMat
      rw [deg_zero, pitchMat_zero, rollMat_zero, mul_one, mul_one, hc]
      ext i
      fin_cases i <;> simp [yawMat, Vec3.fn, Matrix.mulVec, dotProduct, Fin.sum_univ_three], by
      simp⟩

end exact

end Bf2
