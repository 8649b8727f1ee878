import Verif.TranslateLemmas
import Verif.Exact
import Verif.Sample

/-!
# Properties of `translate` (C22 to C25)
-/

namespace Bf2

variable {F : Type} [FArith F]

/-! ## A sample -/

/-- Two materials of two and one vertices, in order. -/
def movable (z : F) (vs : List F) : Mesh F :=
  meshOf z posAttrs 16 3 [[(0, 2, 0, 3)], [(2, 1, 3, 3)]] vs [0, 1, 1, 0, 0, 0]

omit [FArith F] in
theorem posAttrs_size : VertexSize posAttrs 4 := ⟨[3, 1], rfl, rfl⟩

omit [FArith F] in
theorem posAttrs_first : FirstPosition posAttrs ⟨0, 0, 2, 0⟩ :=
  ⟨[], _, rfl, by decide, by simp⟩

omit [FArith F] in
theorem posAttrs_start : StartsAt 4 ⟨0, 0, 2, 0⟩ 0 := by decide

omit [FArith F] in
theorem movable_tiled (z : F) (vs : List F) (h : vs.length = 12) : TiledVerts 4 (movable z vs) where
  pos := by decide
  size := posAttrs_size
  nonneg := by simp [movable, meshOf, geomOf, matOf, Mesh.mats, Geom.mats]
  start := starts_of rfl
  total := by
    change (vs.length : Int) = _
    rw [h]; rfl

/-! ## C22: translate shifts positions only -/

/-- On a mesh whose materials tile the vertex array, with positions at floats `o` .. of each vertex,
`translate(d)` succeeds; of the mesh only the vertex array changes; it keeps its length; component
`c` of each vertex gets `d[c - o]` added if it is one of the first `len(d)` position components, and
stays as it was otherwise. -/
theorem C22_translate_moves_positions_only {vs : Nat} {m : Mesh F} {a : VAttr} {o : Nat}
    {d : List F} (tiled : TiledVerts vs m) (first : FirstPosition m.vattrs a)
    (start : StartsAt m.vertformat a o) (fits : o + d.length ≤ vs) :
    ∃ l : List F, translate m d = ({ m with vertices := l }, none) ∧
      l.length = m.vertices.length ∧
      ∀ (v c : Nat) (x : F), c < vs → m.vertices[v * vs + c]? = some x →
        (∀ t, o ≤ c → d[c - o]? = some t → l[v * vs + c]? = some (FArith.add x t)) ∧
        (c < o ∨ o + d.length ≤ c → l[v * vs + c]? = some x) := by
  refine ⟨_, translate_tiled tiled first start fits, movedAll_length _ _ _ _, ?_⟩
  intro v c x hc hx
  have hm : (v * vs + c) % vs = c := by
    rw [Nat.mul_add_mod_self_right, Nat.mod_eq_of_lt hc]
  unfold movedAll
  rw [List.getElem?_mapIdx, hx, Option.map_some, hm]
  unfold moved
  constructor
  · intro t ho ht
    rw [if_pos ho, ht]
  · rintro (h | h)
    · rw [if_neg (by omega)]
    · rw [if_pos (by omega), List.getElem?_eq_none (by omega)]

example : ∃ (m : Mesh F64) (d : List F64), TiledVerts 4 m ∧ FirstPosition m.vattrs ⟨0, 0, 2, 0⟩ ∧
    StartsAt m.vertformat ⟨0, 0, 2, 0⟩ 0 ∧ 0 + d.length ≤ 4 ∧ (translate m d).1 ≠ m :=
  ⟨movable (flt 0) ((List.range 12).map flt), [flt 1, flt 2, flt 3],
    movable_tiled _ _ rfl, posAttrs_first, posAttrs_start, by decide, by decide +kernel⟩

/-! ## C23: other layouts -/

/-- Exact effect for every layout (gaps, overlaps, any order): the new vertex array is the moved
data of the materials, one after the other in file order; the materials, with their `vstart`, stay
as they were. -/
theorem C23_translate_concatenates {vs : Nat} {m : Mesh F} {a : VAttr} {o : Nat} {d : List F}
    (inside : Inside vs m) (first : FirstPosition m.vattrs a) (start : StartsAt m.vertformat a o)
    (fits : o + d.length ≤ vs) :
    translate m d =
      ({ m with vertices := m.mats.flatMap fun b => movedAll vs o d (vertexData vs m b) }, none) :=
  translate_inside inside.pos inside.size inside.verts first start fits

/-- Two materials whose vertices are stored in the opposite order. -/
def swapped : Mesh F64 :=
  meshOf (flt 0) posAttrs 16 2 [[(1, 1, 0, 3), (0, 1, 0, 3)]] ((List.range 8).map flt) [0, 0, 0]

theorem swapped_inside : Inside 4 swapped where
  pos := by decide
  size := posAttrs_size
  verts := by decide
  index := by decide

/-- A material may be given another material's vertices: here the first material gets the vertex of
the second. -/
theorem C23_wrong_vertices : ∃ (m : Mesh F64) (d : List F64) (x y : Mat F64), Inside 4 m ∧
    m.mats = [x, y] ∧ (translate m d).2 = none ∧
    vertexData 4 (translate m d).1 x = movedAll 4 0 d (vertexData 4 m y) ∧
    vertexData 4 (translate m d).1 x ≠ movedAll 4 0 d (vertexData 4 m x) :=
  ⟨swapped, [flt 1, flt 2, flt 3], matOf (1, 1, 0, 3), matOf (0, 1, 0, 3), swapped_inside, by rfl,
    by decide +kernel, by decide +kernel, by decide +kernel⟩

/-- A mesh with a vertex no material refers to. -/
def gapped : Mesh F64 :=
  meshOf (flt 0) posAttrs 16 2 [[(1, 1, 0, 3)]] ((List.range 8).map flt) [0, 0, 0]

/-- Vertices no material refers to are dropped, and the material is left pointing outside the vertex
array. -/
theorem C23_dropped_vertices : ∃ (m : Mesh F64) (d : List F64), Inside 4 m ∧
    (translate m d).2 = none ∧ (translate m d).1.vertices.length < m.vertices.length ∧
    ¬ ∀ a ∈ (translate m d).1.mats, VertsInside 4 (translate m d).1 a :=
  ⟨gapped, [flt 1, flt 2, flt 3], ⟨by decide, posAttrs_size, by decide, by decide⟩,
    by decide +kernel, by decide +kernel, by decide +kernel⟩

/-! ## C24: all or nothing -/

/-- When `translate` raises, the mesh is unchanged. -/
theorem C24_translate_atomic (m : Mesh F) (d : List F) (h : (translate m d).2 ≠ none) :
    (translate m d).1 = m := by
  unfold translate setVertices at h ⊢
  split at h <;> simp_all

/-- An attribute in use with an unknown type: `ValueError`, unless there is no material at all. -/
theorem C24_unknown_type (m : Mesh F) (d : List F) (h : ∀ n, ¬ VertexSize m.vattrs n)
    (hm : m.mats ≠ []) : translate m d = (m, some .valueError) := by
  rw [translate, editVertices_flat, flatMapE_error (e := .valueError)]
  · rfl
  · intro a _
    right; rw [editMat, vertexSize_unknown h]
  · obtain ⟨a, ha⟩ := List.exists_mem_of_ne_nil _ hm
    exact ⟨a, ha, by rw [editMat, vertexSize_unknown h]⟩

/-- No position attribute: `UnboundLocalError`, if there is a vertex and anything to add. -/
theorem C24_no_position {vs : Nat} {m : Mesh F} {d : List F} (inside : Inside vs m)
    (none : ∀ a ∈ m.vattrs, ¬ (a.usage = 0 ∧ a.flag ≠ 255)) (hd : d ≠ [])
    (vertex : ∃ a ∈ m.mats, 0 < a.vnum) : translate m d = (m, some .unboundLocalError) := by
  have hf : ∀ v : List F, translateVertex m d v = .error .unboundLocalError := by
    intro v
    unfold translateVertex
    rw [posOffset_none none]
    cases d with
    | nil => exact absurd rfl hd
    | cons _ _ => rfl
  have hmat : ∀ b ∈ m.mats, editMat (translateVertex m d) m b =
      flatMapE (translateVertex m d) (chunks vs (vertexData vs m b)) := by
    intro b hb
    rw [editMat, (vertexSize_iff _ _).2 inside.size]
    simp only
    rw [if_neg (by have := inside.pos; omega), matVertices_eq _ _ _ (inside.verts b hb)]
  rw [translate, editVertices_flat, flatMapE_error (e := .unboundLocalError)]
  · rfl
  · intro b hb
    rw [hmat b hb]
    cases hc : chunks vs (vertexData vs m b) with
    | nil => left; exact ⟨[], rfl⟩
    | cons c cs => right; rw [flatMapE, hf]
  · obtain ⟨b, hb, hn⟩ := vertex
    refine ⟨b, hb, ?_⟩
    rw [hmat b hb]
    have hne : vertexData vs m b ≠ [] := by
      intro h0
      have := vertexData_length _ _ _ (inside.verts b hb)
      rw [h0, List.length_nil] at this
      have : 0 < b.vnum.toNat * vs := Nat.mul_pos (by omega) inside.pos
      omega
    obtain ⟨c, cs, hc⟩ := List.exists_cons_of_ne_nil (chunks_ne_nil inside.pos _ hne)
    rw [hc, flatMapE, hf]

/-- An offset with more components than the vertex has from its position on: `IndexError`. -/
theorem C24_offset_too_long {vs : Nat} {m : Mesh F} {a : VAttr} {o : Nat} {d : List F}
    (inside : Inside vs m) (first : FirstPosition m.vattrs a) (start : StartsAt m.vertformat a o)
    (long : vs < o + d.length) (hd : d ≠ []) (vertex : ∃ a ∈ m.mats, 0 < a.vnum) :
    translate m d = (m, some .indexError) := by
  have hf : ∀ v : List F, v.length = vs → translateVertex m d v = .error .indexError := by
    intro v hv
    unfold translateVertex
    rw [posOffset_first first start]
    exact addAll_short o d 0 v (by omega) hd
  have hmat : ∀ b ∈ m.mats, editMat (translateVertex m d) m b =
      flatMapE (translateVertex m d) (chunks vs (vertexData vs m b)) := by
    intro b hb
    rw [editMat, (vertexSize_iff _ _).2 inside.size]
    simp only
    rw [if_neg (by have := inside.pos; omega), matVertices_eq _ _ _ (inside.verts b hb)]
  have hlen : ∀ b ∈ m.mats, ∀ c ∈ chunks vs (vertexData vs m b), c.length = vs := fun b hb c hc =>
    chunks_length _ _ hc _ (vertexData_length _ _ _ (inside.verts b hb))
  rw [translate, editVertices_flat, flatMapE_error (e := .indexError)]
  · rfl
  · intro b hb
    rw [hmat b hb]
    cases hc : chunks vs (vertexData vs m b) with
    | nil => left; exact ⟨[], rfl⟩
    | cons c cs => right; rw [flatMapE, hf c (hlen b hb c (by simp [hc]))]
  · obtain ⟨b, hb, hn⟩ := vertex
    refine ⟨b, hb, ?_⟩
    rw [hmat b hb]
    have hne : vertexData vs m b ≠ [] := by
      intro h0
      have := vertexData_length _ _ _ (inside.verts b hb)
      rw [h0, List.length_nil] at this
      have : 0 < b.vnum.toNat * vs := Nat.mul_pos (by omega) inside.pos
      omega
    obtain ⟨c, cs, hc⟩ := List.exists_cons_of_ne_nil (chunks_ne_nil inside.pos _ hne)
    rw [hc, flatMapE, hf c (hlen b hb c (by simp [hc]))]

/-- Each of the three failures occurs: an attribute of type `UBYTE4`; no position; five components. -/
example :
    (translate (meshOf (flt 0) [⟨0, 0, 5, 0⟩] 4 1 [[(0, 1, 0, 0)]] [flt 0] []) [flt 1]).2
      = some .valueError ∧
    (translate (meshOf (flt 0) [⟨0, 0, 1, 5⟩] 8 1 [[(0, 1, 0, 0)]] [flt 0, flt 1] []) [flt 1]).2
      = some .unboundLocalError ∧
    (translate (movable (flt 0) ((List.range 12).map flt)) ((List.range 5).map flt)).2
      = some .indexError := by decide +kernel

/-! ## C25: translations compose and cancel, in exact arithmetic -/

/-- Translating by `a` and then by `b` is translating by the sum. -/
theorem C25_translations_compose {vs : Nat} {m : Mesh ℝ} {p : VAttr} {o : Nat} {a b : List ℝ}
    (tiled : TiledVerts vs m) (first : FirstPosition m.vattrs p)
    (start : StartsAt m.vertformat p o) (fits : o + a.length ≤ vs) (hl : b.length = a.length) :
    translate (translate m a).1 b = translate m (List.zipWith (· + ·) a b) := by
  rw [translate_tiled tiled first start fits,
    translate_tiled tiled first start (by simp [hl]; omega)]
  simp only
  have t' : TiledVerts vs { m with vertices := movedAll vs o a m.vertices } :=
    ⟨tiled.pos, tiled.size, tiled.nonneg, tiled.start, by
      simp only [movedAll_length]; exact tiled.total⟩
  rw [translate_tiled t' first start (by omega)]
  simp only
  congr 2
  unfold movedAll
  rw [List.mapIdx_mapIdx]
  congr 1
  funext i x
  simp only [Function.comp, moved]
  split
  · rename_i hc
    rcases Nat.lt_or_ge (i % vs - o) a.length with h | h
    · rw [List.getElem?_eq_getElem h, List.getElem?_eq_getElem (by omega : i % vs - o < b.length),
        List.getElem?_eq_getElem (by simp; omega)]
      simp only [add_real, List.getElem_zipWith]
      ring
    · rw [List.getElem?_eq_none h, List.getElem?_eq_none (by omega : b.length ≤ _),
        List.getElem?_eq_none (by simp; omega)]
  · rfl

/-- Translating by `a` and then by `-a` restores the mesh. -/
theorem C25_translations_cancel {vs : Nat} {m : Mesh ℝ} {p : VAttr} {o : Nat} {a : List ℝ}
    (tiled : TiledVerts vs m) (first : FirstPosition m.vattrs p)
    (start : StartsAt m.vertformat p o) (fits : o + a.length ≤ vs) :
    translate (translate m a).1 (a.map fun x => -x) = (m, none) := by
  rw [C25_translations_compose tiled first start fits (by simp),
    translate_tiled tiled first start (by simp; omega)]
  congr 1
  have : movedAll vs o (List.zipWith (· + ·) a (a.map fun x => -x)) m.vertices = m.vertices := by
    unfold movedAll
    apply List.ext_getElem?
    intro i
    rw [List.getElem?_mapIdx]
    cases m.vertices[i]? with
    | none => rfl
    | some x =>
      simp only [Option.map_some, Option.some.injEq, moved]
      split
      · rcases Nat.lt_or_ge (i % vs - o) a.length with h | h
        · rw [List.getElem?_eq_getElem (by simp; omega)]
          simp [add_real]
        · rw [List.getElem?_eq_none (by simp; omega)]
      · rfl
  rw [this]

example : ∃ (m : Mesh ℝ) (a b : List ℝ), TiledVerts 4 m ∧ FirstPosition m.vattrs ⟨0, 0, 2, 0⟩ ∧
    StartsAt m.vertformat ⟨0, 0, 2, 0⟩ 0 ∧ 0 + a.length ≤ 4 ∧ b.length = a.length ∧ a ≠ [] :=
  ⟨movable 0 [0, 1, 2, 3, 4, 5, 6, 7, 8, 9, 10, 11], [1, 2, 3], [4, 5, 6],
    movable_tiled _ _ rfl, posAttrs_first, posAttrs_start, by simp, rfl, by simp⟩

end Bf2
