import Verif.BoundsLemmas
import Verif.Props.Rotate

/-!
# Properties of `update_boundaries` and `get_lod_center_offset` (C45 to C49)

`FArith.lt` is Python's `<`; a NaN component is neither below nor above anything.
-/

namespace Bf2

variable {F : Type}

/-! ## A sample: version 11, one lod, two materials of one vertex each -/

/-- `rotatable` as a version 11 mesh. -/
def boxed {F : Type} (z : F) (vs : List F) : Mesh F :=
  { rotatable z vs with head := ⟨0, 11, 0, 0, 0⟩ }

theorem boxed_bounded (z : F) (vs : List F) : Bounded (boxed z vs) := ⟨rfl, rfl⟩

theorem boxed_size (z : F) (vs : List F) : VertexSize (boxed z vs).vattrs 8 := ⟨[3, 3, 2], rfl, rfl⟩

theorem boxed_position (z : F) (vs : List F) : PositionAt 8 0 (boxed z vs) ⟨0, 0, 2, 0⟩ :=
  ⟨⟨[], _, rfl, by decide, by decide⟩, show StartsAt 4 _ _ by decide, Or.inl rfl, by decide⟩

theorem boxed_inside (z : F) (vs : List F) (h : vs.length = 16) :
    ∀ a ∈ (boxed z vs).mats, VertsInside 8 (boxed z vs) a := by
  intro a ha
  simp only [boxed, rotatable, meshOf, geomOf, matOf, Mesh.mats, Geom.mats, List.map_cons,
    List.map_nil, List.flatMap_cons, List.flatMap_nil, List.append_nil, List.mem_cons,
    List.not_mem_nil, or_false] at ha
  have hl : (boxed z vs).vertices.length = 16 := h
  rcases ha with rfl | rfl <;> refine ⟨by simp, by simp, ?_⟩ <;> rw [hl] <;> simp

theorem boxed_known (z : F) (vs : List F) : AttrsKnown (boxed z vs) := by
  intro b hb hf
  simp only [boxed, rotatable, meshOf, vecAttrs, List.mem_cons, List.not_mem_nil, or_false] at hb
  rcases hb with rfl | rfl | rfl | rfl
  · exact ⟨by unfold KnownUsage; decide, ⟨3, rfl⟩, 0, show StartsAt 4 _ _ by decide⟩
  · exact ⟨by unfold KnownUsage; decide, ⟨3, rfl⟩, 3, show StartsAt 4 _ _ by decide⟩
  · exact ⟨by unfold KnownUsage; decide, ⟨2, rfl⟩, 6, show StartsAt 4 _ _ by decide⟩
  · exact absurd rfl hf

/-- Positions (1, -2, 3) and (4, 5, -6). -/
def boxedVerts : List F64 :=
  [flt 1, (flt 2).negate, flt 3, flt 0, flt 0, flt 0, flt 0, flt 0,
   flt 4, flt 5, (flt 6).negate, flt 0, flt 0, flt 0, flt 0, flt 0]

/-! ## C45: updated bounds contain every vertex -/

section
variable [FArith F]

/-- After a successful `update_boundaries` of a non-skinned version 11 mesh, no position component
of a vertex of a material is below `mmin` or above `mmax` of the material, or below `min` or above
`max` of the lod. -/
theorem C45_bounds_contain [LawfulLt F] {vs o : Nat} {m m' : Mesh F} {p : VAttr} (hb : Bounded m)
    (hsz : VertexSize m.vattrs vs) (hpos : PositionAt vs o m p)
    (hin : ∀ a ∈ m.mats, VertsInside vs m a) (h : updateBoundaries m = (m', none)) :
    BoundsAre Covers vs o m m' :=
  update_bounds hb hsz hpos hin h Covers fun ps => fold_covers ps Box.zero

/-- The update raises nothing when the used attributes have known types and usages. -/
theorem C45_update_succeeds {vs o : Nat} {m : Mesh F} {p : VAttr}
    (hsz : VertexSize m.vattrs vs) (hpos : PositionAt vs o m p) (hattr : AttrsKnown m)
    (hin : ∀ a ∈ m.mats, VertsInside vs m a) : (updateBoundaries m).2 = none :=
  update_ok hsz hpos hattr hin

omit [FArith F] in
/-- Every vertex of a material has a position, so `PosOf` leaves none out. -/
theorem C45_every_vertex {vs o : Nat} {m : Mesh F} {p : VAttr} (hpos : PositionAt vs o m p)
    {a : Mat F} (hin : VertsInside vs m a) {v : Nat} (hv : (v : Int) < a.vnum) :
    ∃ x, vec3At (corner vs (vertexData vs m a) v) o = some x ∧ PosOf vs o m a x := by
  obtain ⟨x, hx, -⟩ := toVec3_position (n := 3) hin hv (Nat.le_refl _) hpos.fits
  refine ⟨x, ?_, v, hv, hx⟩
  unfold vertexPos at hx
  rw [← hx]
  have h3 := hpos.fits
  unfold vec3At corner vertexData block
  have hvn : v + 1 ≤ a.vnum.toNat := by omega
  have hle : v * vs + vs ≤ a.vnum.toNat * vs := by
    calc v * vs + vs = (v + 1) * vs := by ring
      _ ≤ _ := Nat.mul_le_mul_right _ hvn
  have hg : ∀ i, i < vs → (List.take vs (List.drop (v * vs) (List.take (a.vnum.toNat * vs)
      (List.drop (a.vstart.toNat * vs) m.vertices))))[i]? =
      m.vertices[(a.vstart.toNat + v) * vs + i]? := by
    intro i hi
    rw [List.getElem?_take, if_pos hi, List.getElem?_drop, List.getElem?_take,
      if_pos (by omega), List.getElem?_drop]
    congr 1
    ring
  have e1 : ((vs : Int)).toNat = vs := by omega
  have e2 : ((v : Int) * vs).toNat = v * vs := by rw [← Int.natCast_mul]; omega
  have e3 : (a.vnum * vs).toNat = a.vnum.toNat * vs := by
    rw [Int.toNat_mul hin.2.1 (by omega), e1]
  have e4 : (a.vstart * vs).toNat = a.vstart.toNat * vs := by
    rw [Int.toNat_mul hin.1 (by omega), e1]
  rw [e1, e2, e3, e4, hg o (by omega), hg (o + 1) (by omega), hg (o + 2) (by omega), ← Nat.add_assoc,
    ← Nat.add_assoc]

end

/-- With finite positions, in numbers: `min ≤ x ≤ max`. -/
theorem C45_values_contained {vs o : Nat} {m m' : Mesh F64} {p : VAttr} (hb : Bounded m)
    (hsz : VertexSize m.vattrs vs) (hpos : PositionAt vs o m p)
    (hin : ∀ a ∈ m.mats, VertsInside vs m a) (h : updateBoundaries m = (m', none))
    (hfin : ∀ a x, PosOf vs o m a x → ∀ c, (x.comp c).isFin = true) :
    BoundsAre (fun mn mx P => ∀ x, P x → ∀ c,
      (mn.comp c).value ≤ (x.comp c).value ∧ (x.comp c).value ≤ (mx.comp c).value) vs o m m' := by
  have key : ∀ (mn mx : Vec3 F64) (P : Vec3 F64 → Prop), (∀ x, P x → ∀ c, (x.comp c).isFin = true) →
      Covers mn mx P ∧ Tight mn mx P → ∀ x, P x → ∀ c,
      (mn.comp c).value ≤ (x.comp c).value ∧ (x.comp c).value ≤ (mx.comp c).value := by
    rintro mn mx P hf ⟨hc, ht⟩ x hx c
    have hz : (FArith.zero : F64).isFin = true := by decide
    have h1 : (mn.comp c).isFin = true := by
      rcases (ht c).1 with e | ⟨y, hy, e⟩
      · rw [e]; exact hz
      · rw [e]; exact hf y hy c
    have h2 : (mx.comp c).isFin = true := by
      rcases (ht c).2 with e | ⟨y, hy, e⟩
      · rw [e]; exact hz
      · rw [e]; exact hf y hy c
    have := hc x hx c
    constructor
    · rw [← not_lt, ← lt'_iff (hf x hx c) h1]
      rw [Bool.not_eq_true]; exact this.1
    · rw [← not_lt, ← lt'_iff h2 (hf x hx c)]
      rw [Bool.not_eq_true]; exact this.2
  have hall := update_bounds hb hsz hpos hin h (fun mn mx P => Covers mn mx P ∧ Tight mn mx P)
    fun ps => ⟨fold_covers ps Box.zero, fun c => by
      have := fold_tight ps (Box.zero : Box F64) c
      rwa [(zero_comp c).1, (zero_comp c).2] at this⟩
  refine List.Forall₂.imp (fun g g' hg => List.Forall₂.imp (fun l l' hl => ?_) hg) hall
  refine ⟨key _ _ _ (fun x ⟨a, _, hx⟩ => hfin a x hx) hl.1,
    List.Forall₂.imp (fun a a' ⟨mn, mx, e1, e2, hP⟩ => ⟨mn, mx, e1, e2, ?_⟩) hl.2⟩
  exact key mn mx _ (fun x hx => hfin a x hx) hP

/-- The hypotheses hold for a real case, whose bounds are not trivial: the lod has
(0, -2, -6) .. (4, 5, 3), the first material (0, -2, 0) .. (1, 0, 3). -/
example : Bounded (boxed (flt 0) boxedVerts) ∧ VertexSize (boxed (flt 0) boxedVerts).vattrs 8 ∧
    PositionAt 8 0 (boxed (flt 0) boxedVerts) ⟨0, 0, 2, 0⟩ ∧ AttrsKnown (boxed (flt 0) boxedVerts) ∧
    (∀ a ∈ (boxed (flt 0) boxedVerts).mats, VertsInside 8 (boxed (flt 0) boxedVerts) a) ∧
    (updateBoundaries (boxed (flt 0) boxedVerts)).2 = none ∧
    ((updateBoundaries (boxed (flt 0) boxedVerts)).1.geoms.flatMap (·.lods)).map
        (fun l => (l.min, l.max)) =
      [(⟨flt 0, (flt 2).negate, (flt 6).negate⟩, ⟨flt 4, flt 5, flt 3⟩)] ∧
    (updateBoundaries (boxed (flt 0) boxedVerts)).1.mats.map (fun a => (a.mmin, a.mmax)) =
      [(some ⟨flt 0, (flt 2).negate, flt 0⟩, some ⟨flt 1, flt 0, flt 3⟩),
       (some ⟨flt 0, flt 0, (flt 6).negate⟩, some ⟨flt 4, flt 5, flt 0⟩)] :=
  ⟨boxed_bounded _ _, boxed_size _ _, boxed_position _ _, boxed_known _ _, boxed_inside _ _ rfl,
    by decide +kernel, by decide +kernel, by decide +kernel⟩

/-! ## C46: updated bounds are tight with the origin -/

section
variable [FArith F]

/-- Every component of an updated bound is `0.0` or that of a vertex position of the material (of a
material of the lod). -/
theorem C46_bounds_tight {vs o : Nat} {m m' : Mesh F} {p : VAttr} (hb : Bounded m)
    (hsz : VertexSize m.vattrs vs) (hpos : PositionAt vs o m p)
    (hin : ∀ a ∈ m.mats, VertsInside vs m a) (h : updateBoundaries m = (m', none)) :
    BoundsAre Tight vs o m m' :=
  update_bounds hb hsz hpos hin h Tight fun ps c => by
    have := fold_tight ps (Box.zero : Box F) c
    rwa [(zero_comp c).1, (zero_comp c).2] at this

/-- The box contains the origin, also when no vertex is near it. -/
theorem C46_origin_inside [LawfulLt F] {vs o : Nat} {m m' : Mesh F} {p : VAttr} (hb : Bounded m)
    (hsz : VertexSize m.vattrs vs) (hpos : PositionAt vs o m p)
    (hin : ∀ a ∈ m.mats, VertsInside vs m a) (h : updateBoundaries m = (m', none)) :
    BoundsAre (fun mn mx _ => Covers mn mx
      (· = ⟨FArith.zero, FArith.zero, FArith.zero⟩)) vs o m m' :=
  update_bounds hb hsz hpos hin h _ fun ps => by
    rintro x rfl c
    refine extend_keeps ps Box.zero c _ ?_ ?_
    · rw [(zero_comp c).1]; fin_cases c <;> exact LawfulLt.irrefl _
    · rw [(zero_comp c).2]; fin_cases c <;> exact LawfulLt.irrefl _

/-- It is the smallest such box: any box that contains the vertices and the origin contains it. -/
theorem C46_smallest_box {vs o : Nat} {m m' : Mesh F} {p : VAttr} (hb : Bounded m)
    (hsz : VertexSize m.vattrs vs) (hpos : PositionAt vs o m p)
    (hin : ∀ a ∈ m.mats, VertsInside vs m a) (h : updateBoundaries m = (m', none)) :
    BoundsAre (fun mn mx P => ∀ lo hi : Vec3 F, Covers lo hi P →
      Covers lo hi (· = ⟨FArith.zero, FArith.zero, FArith.zero⟩) →
      Covers lo hi (· = mn) ∧ Covers lo hi (· = mx)) vs o m m' := by
  have key : ∀ (mn mx : Vec3 F) (P : Vec3 F → Prop), Tight mn mx P →
      ∀ lo hi : Vec3 F, Covers lo hi P →
      Covers lo hi (· = ⟨FArith.zero, FArith.zero, FArith.zero⟩) →
      Covers lo hi (· = mn) ∧ Covers lo hi (· = mx) := by
    intro mn mx P ht lo hi hP h0
    have hz : ∀ c, (⟨FArith.zero, FArith.zero, FArith.zero⟩ : Vec3 F).comp c = FArith.zero := by
      intro c; fin_cases c <;> rfl
    constructor
    · rintro _ rfl c
      rcases (ht c).1 with e | ⟨y, hy, e⟩
      · rw [e, ← hz c]; exact h0 _ rfl c
      · rw [e]; exact hP y hy c
    · rintro _ rfl c
      rcases (ht c).2 with e | ⟨y, hy, e⟩
      · rw [e, ← hz c]; exact h0 _ rfl c
      · rw [e]; exact hP y hy c
  have hall := C46_bounds_tight hb hsz hpos hin h
  refine List.Forall₂.imp (fun g g' hg => List.Forall₂.imp (fun l l' hl => ?_) hg) hall
  exact ⟨key _ _ _ hl.1, List.Forall₂.imp
    (fun a a' ⟨mn, mx, e1, e2, hP⟩ => ⟨mn, mx, e1, e2, key mn mx _ hP⟩) hl.2⟩

/-- The box is not the bounding box of the vertices alone: with all vertices at (1, 2, 3) the bounds
start at the origin. -/
example : ((updateBoundaries (boxed (flt 0) [flt 1, flt 2, flt 3, flt 0, flt 0, flt 0, flt 0, flt 0,
      flt 1, flt 2, flt 3, flt 0, flt 0, flt 0, flt 0, flt 0])).1.geoms.flatMap (·.lods)).map
        (fun l => (l.min, l.max)) =
      [(⟨flt 0, flt 0, flt 0⟩, ⟨flt 1, flt 2, flt 3⟩)] := by decide +kernel

/-! ## C47: bounds of other meshes are zeroed -/

/-- On a skinned mesh, or a version other than 11, a successful `update_boundaries` sets all lod
bounds to zero and changes nothing else, whatever the vertices. -/
theorem C47_bounds_zeroed {m m' : Mesh F} (hb : m.kind.isSkinned = true ∨ m.head.version ≠ 11)
    (h : updateBoundaries m = (m', none)) :
    m' = { m with geoms := m.geoms.map fun g => { g with lods := g.lods.map fun l =>
      { l with min := ⟨FArith.zero, FArith.zero, FArith.zero⟩
               max := ⟨FArith.zero, FArith.zero, FArith.zero⟩ } } } :=
  update_unbounded (fun hB => by
    rcases hb with h | h
    · rw [hB.1] at h; cases h
    · exact h hB.2) h

/-- It succeeds, without any position attribute, when the used attributes have known types and
usages. -/
theorem C47_update_succeeds {m : Mesh F} {vs : Nat}
    (hb : m.kind.isSkinned = true ∨ m.head.version ≠ 11)
    (hsz : VertexSize m.vattrs vs) (hattr : AttrsKnown m) : (updateBoundaries m).2 = none :=
  update_ok_of fun _ _ _ _ s => ⟨s, boundVertex_ok_unbounded (fun hB => by
    rcases hb with h | h
    · rw [hB.1] at h; cases h
    · exact h hB.2) hsz hattr s⟩

end

/-- A version 10 mesh with real vertices loses the bounds it had. -/
example : (rotatable (flt 7) boxedVerts).head.version ≠ 11 ∧
    VertexSize (rotatable (flt 7) boxedVerts).vattrs 8 ∧
    AttrsKnown (rotatable (flt 7) boxedVerts) ∧
    (rotatable (flt 7) boxedVerts).geoms.flatMap (fun g => g.lods.map (·.max)) =
      [⟨flt 7, flt 7, flt 7⟩] ∧
    (updateBoundaries (rotatable (flt 7) boxedVerts)).1.geoms.flatMap
      (fun g => g.lods.map (·.max)) = [⟨flt 0, flt 0, flt 0⟩] :=
  ⟨by decide, ⟨[3, 3, 2], rfl, rfl⟩, boxed_known (flt 7) boxedVerts, by decide +kernel,
    by decide +kernel⟩

/-! ## C48: updating bounds is idempotent and local -/

section
variable [FArith F]

/-- Updating twice is updating once: same mesh and same exception, if any. -/
theorem C48_idempotent (m : Mesh F) :
    updateBoundaries (updateBoundaries m).1 = updateBoundaries m := update_idem m

/-- Only lod and material bounds change, also when the update raises. -/
theorem C48_local (z : Vec3 F) (m : Mesh F) :
    (updateBoundaries m).1.eraseBounds z = m.eraseBounds z := update_erase z m

end

/-- The update really changes the sample, and a mesh whose position has two floats makes it raise. -/
example : (updateBoundaries (boxed (flt 0) boxedVerts)).1 ≠ boxed (flt 0) boxedVerts ∧
    (updateBoundaries { boxed (flt 0) boxedVerts with vattrs := [⟨0, 0, 1, 0⟩] }).2 =
      some .indexError := by decide +kernel

/-! ## C49: lod centre is the midpoint -/

section
variable [FArith F]

/-- Without update: the float `(min + max) / 2` in every component, and the mesh stays as it was. -/
theorem C49_center {m : Mesh F} {geomId lodId : Int} {j k : Nat} {g : Geom F} {l : Lod F}
    (hj : Names m.geoms.length geomId j) (hg : m.geoms[j]? = some g)
    (hk : Names g.lods.length lodId k) (hl : g.lods[k]? = some l) :
    getLodCenterOffset m geomId lodId false = (m, .ok
      ⟨FArith.half (FArith.add l.min.x l.max.x), FArith.half (FArith.add l.min.y l.max.y),
       FArith.half (FArith.add l.min.z l.max.z)⟩) := by
  unfold getLodCenterOffset lodPos
  rw [pyPos_names hj]
  simp only [hg]
  rw [pyPos_names hk]
  simp only [Bool.false_eq_true, if_false, lodAt, hg, hl]
  rfl

/-- With update: that of the updated lod in the same place. -/
theorem C49_center_updated {m m' : Mesh F} {geomId lodId : Int} {j k : Nat} {g g' : Geom F}
    {l' : Lod F} (hu : updateBoundaries m = (m', none))
    (hj : Names m.geoms.length geomId j) (hg : m.geoms[j]? = some g)
    (hk : Names g.lods.length lodId k)
    (hg' : m'.geoms[j]? = some g') (hl' : g'.lods[k]? = some l') :
    getLodCenterOffset m geomId lodId true = (m', .ok
      ⟨FArith.half (FArith.add l'.min.x l'.max.x), FArith.half (FArith.add l'.min.y l'.max.y),
       FArith.half (FArith.add l'.min.z l'.max.z)⟩) := by
  unfold getLodCenterOffset lodPos
  rw [pyPos_names hj]
  simp only [hg]
  rw [pyPos_names hk]
  simp only [if_true, hu, lodAt, hg', hl']
  rfl

/-- That place exists in the updated mesh. -/
theorem C49_place_kept {m m' : Mesh F} {e : Option Err} (hu : updateBoundaries m = (m', e)) {j k : Nat}
    {g : Geom F} {l : Lod F} (hg : m.geoms[j]? = some g) (hl : g.lods[k]? = some l) :
    ∃ g' l', m'.geoms[j]? = some g' ∧ g'.lods[k]? = some l' ∧
      Lod.eraseBounds l.min l' = Lod.eraseBounds l.min l := by
  have h := update_erase l.min m
  rw [hu] at h
  simp only [Mesh.eraseBounds] at h
  have hgs := congrArg Mesh.geoms h
  simp only at hgs
  have hj := congrArg (fun x => x[j]?) hgs
  simp only [List.getElem?_map, hg, Option.map_some] at hj
  rcases hg' : m'.geoms[j]? with _ | g'
  · rw [hg'] at hj; cases hj
  · rw [hg'] at hj
    simp only [Option.map_some, Option.some.injEq] at hj
    have hk := congrArg (fun x => x[k]?) (congrArg Geom.lods hj)
    simp only [List.getElem?_map, hl, Option.map_some] at hk
    rcases hl' : g'.lods[k]? with _ | l'
    · rw [hl'] at hk; cases hk
    · rw [hl'] at hk
      simp only [Option.map_some, Option.some.injEq] at hk
      exact ⟨g', l', rfl, hl', hk⟩

/-- An exception of the update propagates. -/
theorem C49_update_raises {m m' : Mesh F} {e : Err} {geomId lodId : Int} {j k : Nat} {g : Geom F}
    (hu : updateBoundaries m = (m', some e)) (hj : Names m.geoms.length geomId j)
    (hg : m.geoms[j]? = some g) (hk : Names g.lods.length lodId k) :
    getLodCenterOffset m geomId lodId true = (m', .error e) := by
  unfold getLodCenterOffset lodPos
  rw [pyPos_names hj]
  simp only [hg]
  rw [pyPos_names hk]
  simp only [if_true, hu]

/-- Ids that name no lod raise `IndexError`, before any bounds are updated. -/
theorem C49_missing (m : Mesh F) (geomId lodId : Int) (u : Bool)
    (h : ∀ j k g, Names m.geoms.length geomId j → m.geoms[j]? = some g →
      ¬ Names g.lods.length lodId k) :
    getLodCenterOffset m geomId lodId u = (m, .error .indexError) := by
  have hp : lodPos m geomId lodId = none := by
    unfold lodPos
    rcases hj : pyPos m.geoms.length geomId with _ | j
    · rfl
    · simp only
      rcases hg : m.geoms[j]? with _ | g
      · rfl
      · simp only
        rcases hk : pyPos g.lods.length lodId with _ | k
        · rfl
        · exact absurd (names_pyPos hk) (h j k g (names_pyPos hj) hg)
  unfold getLodCenterOffset
  rw [hp]

end

/-- Over the real numbers it is the midpoint: as far from `min` as from `max`. -/
theorem C49_midpoint_real (a b : ℝ) :
    FArith.half (FArith.add a b) - a = b - FArith.half (FArith.add a b) := by
  change (a + b) / 2 - a = b - (a + b) / 2
  ring

/-- Negative ids count from the end; ids out of range raise. -/
example : (getLodCenterOffset (boxed (flt 0) boxedVerts) 0 (-1) true).2 =
      .ok ⟨flt 2, F64.ofRat false (3 / 2), F64.ofRat true (-3 / 2)⟩ ∧
    (getLodCenterOffset (boxed (flt 0) boxedVerts) 0 0 false).2 = .ok ⟨flt 0, flt 0, flt 0⟩ ∧
    (getLodCenterOffset (boxed (flt 0) boxedVerts) 0 1 true).2 = .error .indexError ∧
    (getLodCenterOffset (boxed (flt 0) boxedVerts) (-2) 0 true).2 = .error .indexError := by
  decide +kernel

/-- For doubles near the largest the sum overflows: the "midpoint" of two finite bounds is infinite,
so the real statement does not carry over to every double. -/
theorem C49_midpoint_overflows : ∃ a b : F64, a.isFin = true ∧ b.isFin = true ∧
    (FArith.half (FArith.add a b) : F64).isInf = true :=
  ⟨F64.mk' false (inf64 - 1), F64.mk' false (inf64 - 1), by decide +kernel⟩

end Bf2
