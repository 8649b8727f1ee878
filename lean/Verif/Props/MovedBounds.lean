import Verif.MovedBoundsLemmas
import Verif.TranslateLemmas
import Verif.Props.Bounds
import Verif.DriftLemmas

/-!
# C181: the bounds of a moved mesh

`update_boundaries` starts at the origin.  So the bounds of a moved mesh are the moved bounds only on the
sides where the box did not end at the origin; on the others the old bounds do not tell.
-/

namespace Bf2

/-- **C181.** Bounds updated before and after a move: the new ones lie within the old ones moved, each number
rounded once, and extended to the origin, and they are equal to these on every side that did not end at the
origin.  For all lods and all materials. -/
theorem C181_moved {vs o : Nat} {m mu m1 m2 : Mesh F64} {p : VAttr} {d : Vec3 F64} (tiled : TiledVerts vs m)
    (bounded : Bounded m) (first : FirstPosition m.vattrs p) (hpos : PositionAt vs o m p)
    (fd : ∀ c, (d.comp c).isFin = true) (before : FinitePositions vs o m) (after : FinitePositions vs o m1)
    (hu : updateBoundaries m = (mu, none)) (ht : translate m [d.x, d.y, d.z] = (m1, none))
    (hu' : updateBoundaries m1 = (m2, none)) : BoundsMoved d mu m2 := by
  have htr := translate_tiled (d := [d.x, d.y, d.z]) tiled first hpos.start hpos.fits
  rw [ht] at htr
  have e1 := (Prod.mk.inj htr).1
  have g1 : m1.geoms = m.geoms := by rw [e1]
  have t1 : TiledVerts vs m1 := by
    rw [e1]
    exact ⟨tiled.pos, tiled.size, tiled.nonneg, tiled.start, by simp only [movedAll_length]; exact tiled.total⟩
  have p1 : PositionAt vs o m1 p := by
    rw [e1]
    exact ⟨hpos.last, hpos.start, hpos.wide, hpos.fits⟩
  have b1 : Bounded m1 := by rw [e1]; exact bounded
  have A := update_bounds bounded tiled.size hpos tiled.inside hu OriginBox fold_originBox
  have B := update_bounds b1 t1.size p1 t1.inside hu' OriginBox fold_originBox
  have step : ∀ (a : Mat F64) (x' : Vec3 F64), PosOf vs o m1 a x' ↔ ∃ x, PosOf vs o m a x ∧
      ∀ c, x'.comp c = F64.add (x.comp c) (d.comp c) := by
    intro a x'
    unfold PosOf
    rw [e1]
    simp only
    constructor
    · rintro ⟨v, hv, hx⟩
      rw [vec3At_moved hpos.fits, Option.map_eq_some_iff] at hx
      obtain ⟨x, hx, rfl⟩ := hx
      exact ⟨x, ⟨v, hv, hx⟩, fun i => by fin_cases i <;> rfl⟩
    · rintro ⟨x, ⟨v, hv, hx⟩, hi⟩
      refine ⟨v, hv, ?_⟩
      rw [vec3At_moved hpos.fits, hx, Option.map_some, Option.some.injEq]
      rcases x' with ⟨x0, x1, x2⟩
      have h0 := hi 0
      have h1 := hi 1
      have h2 := hi 2
      simp only [Vec3.comp] at h0 h1 h2
      rw [h0, h1, h2]
      rfl
  have fin : ∀ (a : Mat F64) x, PosOf vs o m a x → ∀ c, (x.comp c).isFin = true :=
    fun a x ⟨v, _, hx⟩ => before _ x hx
  have fin' : ∀ (a : Mat F64) x, PosOf vs o m1 a x → ∀ c, (x.comp c).isFin = true :=
    fun a x ⟨v, _, hx⟩ => after _ x hx
  unfold BoundsAre at A B
  rw [g1] at B
  refine forall₂_join ?_ A B
  intro g gu g2 hA hB
  refine forall₂_join ?_ hA hB
  intro l lu l2 hA hB
  refine ⟨?_, ?_⟩
  · refine hA.1.moved hB.1 fd (fun x ⟨a, _, hx⟩ => fin a x hx) (fun x ⟨a, _, hx⟩ => fin' a x hx) fun x' => ?_
    constructor
    · rintro ⟨a, ha, hx⟩
      obtain ⟨x, hx, hc⟩ := (step a x').1 hx
      exact ⟨x, ⟨a, ha, hx⟩, hc⟩
    · rintro ⟨x, ⟨a, ha, hx⟩, hc⟩
      exact ⟨a, ha, (step a x').2 ⟨x, hx, hc⟩⟩
  · refine forall₂_join ?_ hA.2 hB.2
    intro a au a2 hA hB
    obtain ⟨mn, mx, h1, h2, h3⟩ := hA
    obtain ⟨mn', mx', h1', h2', h3'⟩ := hB
    exact ⟨mn, mx, mn', mx', h1, h2, h1', h2', h3.moved h3' fd (fin a) (fin' a) (step a)⟩

/-- Moved by (-3, 0, 1): the lod had (0, -2, -6) .. (4, 5, 3) and gets (-2, -2, -5) .. (1, 5, 4). -/
example : TiledVerts 8 (boxed (flt 0) boxedVerts) ∧ Bounded (boxed (flt 0) boxedVerts) ∧
    FirstPosition (boxed (flt 0) boxedVerts).vattrs ⟨0, 0, 2, 0⟩ ∧
    PositionAt 8 0 (boxed (flt 0) boxedVerts) ⟨0, 0, 2, 0⟩ ∧
    (updateBoundaries (boxed (flt 0) boxedVerts)).2 = none ∧
    (translate (boxed (flt 0) boxedVerts) [(flt 3).negate, flt 0, flt 1]).2 = none ∧
    (updateBoundaries (translate (boxed (flt 0) boxedVerts) [(flt 3).negate, flt 0, flt 1]).1).2 = none ∧
    ((updateBoundaries (translate (boxed (flt 0) boxedVerts)
        [(flt 3).negate, flt 0, flt 1]).1).1.geoms.flatMap (·.lods)).map (fun l => (l.min, l.max)) =
      [(⟨(flt 2).negate, (flt 2).negate, (flt 5).negate⟩, ⟨flt 1, flt 5, flt 4⟩)] :=
  have h := rotatable_tiled (flt 0) boxedVerts rfl
  ⟨⟨h.pos, h.size, h.nonneg, h.start, h.total⟩, boxed_bounded _ _, ⟨[], _, rfl, by decide, by simp⟩, boxed_position _ _,
    by decide +kernel, by decide +kernel, by decide +kernel, by decide +kernel⟩

/-- Whether the floats at the start of each vertex are finite can be read off the list. -/
theorem finitePositions_of {vs o : Nat} {m : Mesh F64} (h : ∀ x ∈ m.vertices, x.isFin = true) :
    FinitePositions vs o m := by
  intro v x hx c
  obtain ⟨h0, h1, h2⟩ := vec3At_iff.1 hx
  fin_cases c
  · exact h _ (List.mem_of_getElem? h0)
  · exact h _ (List.mem_of_getElem? h1)
  · exact h _ (List.mem_of_getElem? h2)

example : FinitePositions 8 0 (boxed (flt 0) boxedVerts) ∧
    FinitePositions 8 0 (translate (boxed (flt 0) boxedVerts) [(flt 3).negate, flt 0, flt 1]).1 :=
  ⟨finitePositions_of (by decide +kernel), finitePositions_of (by decide +kernel)⟩

/-- The box of `boxedVerts` with the first vertex a unit farther along the first axis. -/
def otherVerts : List F64 :=
  [flt 2, (flt 2).negate, flt 3, flt 0, flt 0, flt 0, flt 0, flt 0,
   flt 4, flt 5, (flt 6).negate, flt 0, flt 0, flt 0, flt 0, flt 0]

/-- **C181.** On a side that ends at the origin the old bounds do not tell the new ones: two meshes whose lods have
the same bounds have different bounds after the same move. -/
theorem C181_untold : ∃ (m n : Mesh F64) (d : List F64),
    (updateBoundaries m).2 = none ∧ (updateBoundaries n).2 = none ∧
    (translate m d).2 = none ∧ (translate n d).2 = none ∧
    ((updateBoundaries m).1.geoms.map fun g => g.lods.map fun l => (l.min, l.max)) =
      ((updateBoundaries n).1.geoms.map fun g => g.lods.map fun l => (l.min, l.max)) ∧
    ((updateBoundaries (translate m d).1).1.geoms.map fun g => g.lods.map fun l => (l.min, l.max)) ≠
      ((updateBoundaries (translate n d).1).1.geoms.map fun g => g.lods.map fun l => (l.min, l.max)) :=
  ⟨boxed (flt 0) boxedVerts, boxed (flt 0) otherVerts, [(flt 3).negate, flt 0, flt 0], by decide +kernel⟩

end Bf2
