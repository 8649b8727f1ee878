import Verif.SaveBoundsSpec
import Verif.BoundsAlgebraLemmas
import Verif.ReadmeLemmas
import Verif.RepoTestsLemmas

/-! # Lemmas for the bounds in saved files -/

namespace Bf2

theorem negZero_iff (x : F64) : x = negZero ↔ x.neg = true ∧ x.mag = 0 := by
  rcases x with ⟨n, m, h⟩
  constructor
  · intro e
    rw [e]
    decide
  · rintro ⟨h1, h2⟩
    simp only at h1 h2
    subst h1 h2
    rfl

theorem rnd32_zero : rnd32 (FArith.zero : F64) = FArith.zero := by decide +kernel

theorem unpackMag_zero : unpackMag 0 = 0 := by decide +kernel

theorem unpackMag_one : 0 < unpackMag 1 := by decide +kernel

theorem packMag_halfTiny : packMag (873 * 2 ^ 52) = 0 ∧ packMag (873 * 2 ^ 52 + 1) = 1 := by
  decide +kernel

/-- Which numbers become zero. -/
theorem rnd32_mag_zero {x : F64} (h : x.mag ≤ inf64) : (rnd32 x).mag = 0 ↔ x.mag ≤ 873 * 2 ^ 52 := by
  rw [rnd32_mag]
  obtain ⟨h1, h2⟩ := packMag_halfTiny
  constructor
  · intro h0
    by_contra hn
    have := packMag_mono (b := 873 * 2 ^ 52 + 1) (c := x.mag) (by omega) h
    rw [h2] at this
    have h3 := unpackMag_mono this (packMag_le h)
    have := unpackMag_one
    omega
  · intro h0
    have := packMag_mono (c := 873 * 2 ^ 52) h0 (by decide)
    rw [h1] at this
    rw [Nat.le_zero.1 this, unpackMag_zero]

theorem halfTiny_key : halfTiny.key = - (873 * 2 ^ 52 : ℕ) ∧ halfTiny.isNaN = false := by decide

/-- Which numbers below zero become `-0.0`. -/
theorem rnd32_negZero {x : F64} (h : F64.lt' x F64.zero = true) :
    rnd32 x = negZero ↔ F64.lt' x halfTiny = false := by
  obtain ⟨h1, -, h3⟩ := (lt_iff_key x F64.zero).1 h
  have hz : (F64.zero : F64).key = 0 := zero_key
  rw [hz] at h3
  have hn := key_neg h3
  have hi : x.mag ≤ inf64 := by simpa [F64.isNaN] using h1
  rw [negZero_iff, rnd32_neg, rnd32_mag_zero hi, Bool.eq_false_iff, ne_eq]
  change _ ↔ ¬ FArith.lt x halfTiny = true
  rw [lt_iff_key]
  have hk : x.key = - (x.mag : ℤ) := by unfold F64.key; rw [if_pos hn]
  obtain ⟨k1, k2⟩ := halfTiny_key
  rw [hk, k1]
  simp only [hn, h1, k2, true_and]
  omega

theorem plainZero_key (x : F64) : (plainZero x).key = x.key ∧ (plainZero x).isNaN = x.isNaN := by
  unfold plainZero
  split
  · next h => rw [h]; decide
  · exact ⟨rfl, rfl⟩

theorem lt_plainZero (x y : F64) : FArith.lt x (plainZero y) = FArith.lt x y := by
  rw [Bool.eq_iff_iff, lt_iff_key, lt_iff_key, (plainZero_key y).1, (plainZero_key y).2]

theorem plainZero_lt (x y : F64) : FArith.lt (plainZero x) y = FArith.lt x y := by
  rw [Bool.eq_iff_iff, lt_iff_key, lt_iff_key, (plainZero_key x).1, (plainZero_key x).2]

theorem plainZero_rnd32 (x : F64) : rnd32 (plainZero (rnd32 x)) = plainZero (rnd32 x) := by
  unfold plainZero
  split
  · exact rnd32_zero
  · show unpackF (packF (unpackF (packF x))) = unpackF (packF x)
    rw [packF_unpackF_packF]

/-- A number not above zero after rounding, up to the sign of a zero. -/
theorem rnd32_below {v : F64} (h : FArith.lt v FArith.zero = true) :
    plainZero (rnd32 v) = FArith.zero ∨
      FArith.lt (plainZero (rnd32 v)) FArith.zero = true ∧ plainZero (rnd32 v) = rnd32 v := by
  by_cases hz : rnd32 v = negZero
  · left
    unfold plainZero
    rw [if_pos hz]
    rfl
  · right
    have e : plainZero (rnd32 v) = rnd32 v := if_neg hz
    refine ⟨?_, e⟩
    obtain ⟨h1, -, h3⟩ := (lt_iff_key v FArith.zero).1 h
    rw [zero_key] at h3
    have hn := key_neg h3
    rw [e, lt_iff_key, rnd32_isNaN, zero_key]
    refine ⟨h1, zero_nan, ?_⟩
    have : (rnd32 v).mag ≠ 0 := fun h0 => hz ((negZero_iff _).2 ⟨by rw [rnd32_neg, hn], h0⟩)
    unfold F64.key
    rw [rnd32_neg, hn, if_pos rfl]
    omega

theorem rnd32_above {v : F64} (h : FArith.lt FArith.zero v = true) :
    plainZero (rnd32 v) = rnd32 v ∧
    (rnd32 v = FArith.zero ∨ FArith.lt FArith.zero (rnd32 v) = true) := by
  obtain ⟨-, h1, h3⟩ := (lt_iff_key FArith.zero v).1 h
  rw [zero_key] at h3
  have hn : v.neg = false := by
    by_contra hh
    rw [Bool.not_eq_false] at hh
    unfold F64.key at h3
    rw [hh, if_pos rfl] at h3
    omega
  refine ⟨if_neg fun e => ?_, ?_⟩
  · have := ((negZero_iff _).1 e).1
    rw [rnd32_neg, hn] at this
    cases this
  · by_cases hm : (rnd32 v).mag = 0
    · left
      have hs : (rnd32 v).neg = false := by rw [rnd32_neg, hn]
      generalize rnd32 v = y at hm hs
      rcases y with ⟨a, b, c⟩
      simp only at hm hs
      subst hm hs
      rfl
    · right
      rw [lt_iff_key, rnd32_isNaN, zero_key]
      refine ⟨zero_nan, h1, ?_⟩
      unfold F64.key
      rw [rnd32_neg, hn]
      simp only [Bool.false_eq_true, if_false]
      omega

theorem not_lt_rnd32 {x y : F64} (h : FArith.lt x y = false) : FArith.lt (rnd32 x) (rnd32 y) = false := by
  rw [Bool.eq_false_iff]
  intro h'
  exact absurd (rnd32_lt h') (by rw [show F64.lt' x y = false from h]; decide)

/-- The least of the rounded numbers. -/
theorem Lowest.rnd32 {v : F64} {P Q : F64 → Prop} (h : Lowest v P)
    (hq : ∀ y, Q y ↔ ∃ x, P x ∧ y = Bf2.rnd32 x) : Lowest (plainZero (Bf2.rnd32 v)) Q := by
  refine ⟨fun y hy => ?_, ?_⟩
  · obtain ⟨x, hx, rfl⟩ := (hq y).1 hy
    rw [lt_plainZero]
    exact not_lt_rnd32 (h.1 x hx)
  · rcases h.2 with rfl | ⟨hv, pv⟩
    · left
      rw [rnd32_zero]
      decide
    · refine (rnd32_below hv).imp id fun ⟨h1, h2⟩ => ⟨h1, ?_⟩
      rw [h2]
      exact (hq _).2 ⟨v, pv, rfl⟩

/-- The greatest of the rounded numbers. -/
theorem Highest.rnd32 {v : F64} {P Q : F64 → Prop} (h : Highest v P)
    (hq : ∀ y, Q y ↔ ∃ x, P x ∧ y = Bf2.rnd32 x) : Highest (plainZero (Bf2.rnd32 v)) Q := by
  refine ⟨fun y hy => ?_, ?_⟩
  · obtain ⟨x, hx, rfl⟩ := (hq y).1 hy
    rw [plainZero_lt]
    exact not_lt_rnd32 (h.1 x hx)
  · rcases h.2 with rfl | ⟨hv, pv⟩
    · left
      rw [rnd32_zero]
      decide
    · obtain ⟨h1, h2⟩ := rnd32_above hv
      rw [h1]
      exact h2.imp id fun h2 => ⟨h2, (hq _).2 ⟨v, pv, rfl⟩⟩

theorem Hull.rnd32 {mn mx mn' mx' : Vec3 F64} {P Q : Vec3 F64 → Prop} (h : Hull mn mx P)
    (hq : ∀ y, Q y ↔ ∃ x, P x ∧ y = x.map Bf2.rnd32) (h' : Hull mn' mx' Q) :
    mn' = (mn.map Bf2.rnd32).map plainZero ∧ mx' = (mx.map Bf2.rnd32).map plainZero := by
  have hc : ∀ c t, (∃ x, Q x ∧ x.comp c = t) ↔
      ∃ s, (∃ x, P x ∧ x.comp c = s) ∧ t = Bf2.rnd32 s := by
    intro c t
    constructor
    · rintro ⟨y, hy, rfl⟩
      obtain ⟨x, hx, rfl⟩ := (hq y).1 hy
      exact ⟨x.comp c, ⟨x, hx, rfl⟩, comp_map _ _ _⟩
    · rintro ⟨_, ⟨x, hx, rfl⟩, rfl⟩
      exact ⟨x.map Bf2.rnd32, (hq _).2 ⟨x, hx, rfl⟩, comp_map _ _ _⟩
  constructor
  · refine comp_ext fun c => ?_
    rw [comp_map, comp_map]
    exact (h' c).1.unique (fun _ => Iff.rfl) ((h c).1.rnd32 (hc c))
  · refine comp_ext fun c => ?_
    rw [comp_map, comp_map]
    exact (h' c).2.unique (fun _ => Iff.rfl) ((h c).2.rnd32 (hc c))

section
variable {F : Type}

theorem posOf_map_iff {f : F → F} {vs o : Nat} {m : Mesh F} {a : Mat F} {x : Vec3 F} :
    PosOf vs o (m.map f) (a.map f) x ↔ ∃ y, PosOf vs o m a y ∧ x = y.map f := by
  refine ⟨posOf_map, ?_⟩
  rintro ⟨y, ⟨v, hv, hy⟩, rfl⟩
  refine ⟨v, hv, ?_⟩
  show vec3At (m.vertices.map f) _ = _
  rw [vec3At_map]
  show (vec3At m.vertices ((a.vstart.toNat + v) * vs + o)).map _ = _
  rw [hy]
  rfl

theorem forall₂_eq_map {α β : Type} {R : α → β → Prop} {f : α → β} {l : List α} {l' : List β}
    (h : List.Forall₂ R l l') (hf : ∀ a b, R a b → b = f a) : l' = l.map f := by
  induction h with
  | nil => rfl
  | cons h1 _ ih => rw [List.map_cons, ← ih, ← hf _ _ h1]

theorem forall₂_of_map_eq {α β : Type} {f : α → β} {l l' : List α} (h : l'.map f = l.map f) :
    List.Forall₂ (fun a a' => f a' = f a) l l' := by
  have h1 : List.Forall₂ Eq (l.map f) (l'.map f) := by rw [h]; exact List.forall₂_refl _
  rw [List.forall₂_map_left_iff, List.forall₂_map_right_iff] at h1
  exact h1.imp fun _ _ h => h.symm

theorem forall₂_and' {α β : Type} {R S : α → β → Prop} {l : List α} {l' : List β}
    (h : List.Forall₂ R l l') (h' : List.Forall₂ S l l') : List.Forall₂ (fun a b => R a b ∧ S a b) l l' := by
  induction h with
  | nil => exact .nil
  | cons h1 _ ih =>
    cases h' with
    | cons h2 h3 => exact .cons ⟨h1, h2⟩ (ih h3)

/-- A mesh that differs from another in its bounds only. -/
theorem mapBounds_ext {f : F → F} {z : Vec3 F} {m m' : Mesh F} (he : m'.eraseBounds z = m.eraseBounds z)
    (hb : List.Forall₂ (fun g g' : Geom F => List.Forall₂ (fun l l' : Lod F =>
      l'.min = l.min.map f ∧ l'.max = l.max.map f ∧
      List.Forall₂ (fun a a' : Mat F => a'.mmin = a.mmin.map (Vec3.map f) ∧
        a'.mmax = a.mmax.map (Vec3.map f)) l.materials l'.materials) g.lods g'.lods) m.geoms m'.geoms) :
    m' = m.mapBounds f := by
  have hg : m'.geoms = (m.mapBounds f).geoms := by
    have h1 := forall₂_of_map_eq (congrArg Mesh.geoms he)
    refine forall₂_eq_map (forall₂_and' hb h1) ?_
    rintro g g' ⟨h2, h3⟩
    simp only [Geom.mk.injEq] at h3
    have h4 : g'.lods = g.lods.map (Lod.mapBounds f) := by
      refine forall₂_eq_map (forall₂_and' h2 (forall₂_of_map_eq h3.2)) ?_
      rintro l l' ⟨⟨e1, e2, e3⟩, e4⟩
      simp only [Lod.eraseBounds, Lod.mk.injEq] at e4
      obtain ⟨-, -, a1, a2, a3, a4, a5, a6, a7⟩ := e4
      have e5 : l'.materials = (l.mapBounds f).materials := by
        refine forall₂_eq_map (forall₂_and' e3 (forall₂_of_map_eq a7)) ?_
        rintro a a' ⟨⟨b1, b2⟩, b3⟩
        rcases a with ⟨⟩
        rcases a' with ⟨⟩
        simp only [Mat.mk.injEq] at b1 b2 b3 ⊢
        tauto
      rcases l with ⟨⟩
      rcases l' with ⟨⟩
      simp only at e1 e2 a1 a2 a3 a4 a5 a6 e5
      subst e1 e2 a1 a2 a3 a4 a5 a6 e5
      rfl
    rcases g with ⟨⟩
    rcases g' with ⟨⟩
    simp only at h3 h4
    obtain ⟨rfl, -⟩ := h3
    subst h4
    rfl
  rcases m with ⟨⟩
  rcases m' with ⟨⟩
  simp only [Mesh.eraseBounds, Mesh.mk.injEq] at he
  simp only [Mesh.mapBounds] at hg ⊢
  simp only [Mesh.mk.injEq]
  tauto

end

/-! ## A mesh with updated bounds, rounded -/

section
variable {F : Type}

theorem mats_map (f : F → F) (m : Mesh F) : (m.map f).mats = m.mats.map (Mat.map f) := by
  unfold Mesh.mats Mesh.map
  simp only [List.flatMap_map, List.map_flatMap]
  refine List.flatMap_congr fun g _ => ?_
  unfold Geom.mats Geom.map
  simp only [List.flatMap_map, List.map_flatMap]
  rfl

theorem inside_map {f : F → F} {vs : Nat} {m : Mesh F} (h : ∀ a ∈ m.mats, VertsInside vs m a) :
    ∀ a ∈ (m.map f).mats, VertsInside vs (m.map f) a := by
  intro a ha
  rw [mats_map] at ha
  obtain ⟨b, hb, rfl⟩ := List.mem_map.1 ha
  obtain ⟨h1, h2, h3⟩ := h b hb
  exact ⟨h1, h2, by simpa [Mesh.map, Mat.map] using h3⟩

theorem mats_erase (z : Vec3 F) (m : Mesh F) :
    (m.eraseBounds z).mats = m.mats.map fun a => { a with mmin := none, mmax := none } := by
  unfold Mesh.mats Mesh.eraseBounds
  simp only [List.flatMap_map, List.map_flatMap]
  refine List.flatMap_congr fun g _ => ?_
  unfold Geom.mats
  simp only [List.flatMap_map, List.map_flatMap]
  rfl

theorem update_inside [FArith F] {vs : Nat} {m : Mesh F} (h : ∀ a ∈ m.mats, VertsInside vs m a) :
    ∀ a ∈ (updateBoundaries m).1.mats, VertsInside vs (updateBoundaries m).1 a := by
  intro a ha
  have z : Vec3 F := ⟨FArith.zero, FArith.zero, FArith.zero⟩
  have h1 := update_erase z m
  have h2 := congrArg Mesh.mats h1
  rw [mats_erase, mats_erase] at h2
  have h3 : ({ a with mmin := none, mmax := none } : Mat F) ∈
      m.mats.map fun a => { a with mmin := none, mmax := none } := by
    rw [← h2]; exact List.mem_map.2 ⟨a, ha, rfl⟩
  obtain ⟨b, hb, e⟩ := List.mem_map.1 h3
  simp only [Mat.mk.injEq] at e
  have h4 : (updateBoundaries m).1.vertices = m.vertices := by
    have h5 := congrArg Mesh.vertices h1
    exact h5
  obtain ⟨k1, k2, k3⟩ := h b hb
  unfold VertsInside
  rw [h4, ← e.2.2.2.2.2.1, ← e.2.2.2.2.2.2.2.2.1]
  exact ⟨k1, k2, k3⟩

end

theorem update_rounded {vs o : Nat} {m : Mesh F64} {p : VAttr} (hb : Bounded m)
    (hsz : VertexSize m.vattrs vs) (hpos : PositionAt vs o m p) (hattr : AttrsKnown m)
    (hin : ∀ a ∈ m.mats, VertsInside vs m a) (hu : updateBoundaries m = (m, none)) :
    updateBoundaries (m.map rnd32) = ((m.map rnd32).mapBounds plainZero, none) := by
  have h1 : BoundsAre Hull vs o m m := update_hull hb hsz hpos hin hu
  have hpos' : PositionAt vs o (m.map rnd32) p := hpos.congr rfl rfl
  have hin' := inside_map (f := rnd32) hin
  have ok : (updateBoundaries (m.map rnd32)).2 = none :=
    update_ok (m := m.map rnd32) hsz hpos' (hattr.congr rfl rfl) hin'
  have h2 : BoundsAre Hull vs o (m.map rnd32) (updateBoundaries (m.map rnd32)).1 :=
    update_hull (m := m.map rnd32) hb hsz hpos' hin' (by rw [← ok])
  refine Prod.ext ?_ ok
  refine mapBounds_ext (z := ⟨F64.zero, F64.zero, F64.zero⟩) (update_erase _ _) ?_
  unfold BoundsAre at h1 h2
  rw [List.forall₂_same] at h1
  simp only [Mesh.map, List.forall₂_map_left_iff] at h2 ⊢
  have h3 : List.Forall₂ (fun g (_ : Geom F64) => g ∈ m.geoms) m.geoms
      (updateBoundaries (m.map rnd32)).1.geoms := by
    rw [List.forall₂_iff_get]
    exact ⟨h2.length_eq, fun i _ _ => List.get_mem _ _⟩
  refine (forall₂_and' h2 h3).imp ?_
  rintro g g' ⟨h4, hg⟩
  have h5 := h1 g hg
  rw [List.forall₂_same] at h5
  simp only [Geom.map, List.forall₂_map_left_iff] at h4 ⊢
  have h6 : List.Forall₂ (fun l (_ : Lod F64) => l ∈ g.lods) g.lods g'.lods := by
    rw [List.forall₂_iff_get]
    exact ⟨h4.length_eq, fun i _ _ => List.get_mem _ _⟩
  refine (forall₂_and' h4 h6).imp ?_
  rintro l l' ⟨⟨h7, h8⟩, hl⟩
  obtain ⟨h9, h10⟩ := h5 l hl
  rw [List.forall₂_same] at h10
  obtain ⟨e1, e2⟩ := h9.rnd32 (Q := fun x => ∃ a ∈ (l.map rnd32).materials, PosOf vs o (m.map rnd32) a x)
    (fun y => by
      simp only [Lod.map, List.mem_map]
      constructor
      · rintro ⟨_, ⟨a, ha, rfl⟩, hy⟩
        obtain ⟨x, hx, e⟩ := posOf_map_iff.1 hy
        exact ⟨x, ⟨a, ha, hx⟩, e⟩
      · rintro ⟨x, ⟨a, ha, hx⟩, e⟩
        exact ⟨_, ⟨a, ha, rfl⟩, posOf_map_iff.2 ⟨x, hx, e⟩⟩) h7
  refine ⟨e1, e2, ?_⟩
  simp only [Lod.map, List.forall₂_map_left_iff] at h8 ⊢
  have h11 : List.Forall₂ (fun a (_ : Mat F64) => a ∈ l.materials) l.materials l'.materials := by
    rw [List.forall₂_iff_get]
    exact ⟨h8.length_eq, fun i _ _ => List.get_mem _ _⟩
  refine (forall₂_and' h8 h11).imp ?_
  rintro a a' ⟨⟨mn', mx', b1, b2, b3⟩, ha⟩
  obtain ⟨mn, mx, c1, c2, c3⟩ := h10 a ha
  obtain ⟨d1, d2⟩ := c3.rnd32 (fun y => posOf_map_iff) b3
  rw [b1, b2, d1, d2]
  simp [Mat.map, c1, c2]

/-! ## When the rounded bounds are the bounds of the rounded positions -/

theorem vec_ext_comp {F : Type} {u v : Vec3 F} (h : ∀ c, u.comp c = v.comp c) : u = v := by
  rcases u with ⟨a, b, c⟩
  rcases v with ⟨a', b', c'⟩
  have h0 := h 0
  have h1 := h 1
  have h2 := h 2
  simp only [Vec3.comp] at h0 h1 h2
  rw [h0, h1, h2]

theorem plainZero_self (x : F64) : plainZero x = x ↔ x ≠ negZero := by
  unfold plainZero
  split
  · next h => rw [h]; decide
  · next h => exact ⟨fun _ => h, fun _ => rfl⟩

/-- Rounding the bounds leaves no `-0.0`. -/
def NoNegZero (v : Vec3 F64) : Prop := (v.map rnd32).map plainZero = v.map rnd32

theorem noNegZero_iff (v : Vec3 F64) : NoNegZero v ↔ ∀ c, rnd32 (v.comp c) ≠ negZero := by
  unfold NoNegZero
  constructor
  · intro h c
    have h1 := congrArg (fun u => Vec3.comp u c) h
    simp only [comp_map] at h1
    exact (plainZero_self _).1 h1
  · intro h
    refine vec_ext_comp fun c => ?_
    rw [comp_map, comp_map]
    exact (plainZero_self _).2 (h c)

theorem Hull.noNegZero_min {mn mx : Vec3 F64} {P : Vec3 F64 → Prop} (h : Hull mn mx P) :
    NoNegZero mn ↔ ∀ c, ¬ JustBelow P c := by
  rw [noNegZero_iff]
  refine forall_congr' fun c => ?_
  refine not_congr ?_
  obtain ⟨low, hv⟩ := (h c).1
  constructor
  · intro e
    rcases hv with e0 | ⟨hl, x, hx, ex⟩
    · rw [e0, rnd32_zero] at e
      exact absurd e (by decide)
    · have h2 := (rnd32_negZero hl).1 e
      refine ⟨⟨x, hx, by rw [ex]; exact hl⟩, fun y hy => ?_⟩
      have h3 := low _ ⟨y, hy, rfl⟩
      rw [Bool.eq_false_iff] at h2 ⊢
      intro h4
      obtain ⟨a1, a2, a3⟩ := (lt_iff_key _ _).1 h4
      obtain ⟨b1, b2, b3⟩ := (lt_iff_key _ _).1 hl
      refine h2 ((lt_iff_key _ _).2 ⟨b1, a2, ?_⟩)
      by_contra hn
      have h5 : FArith.lt (y.comp c) (mn.comp c) = true := (lt_iff_key _ _).2 ⟨a1, b1, by omega⟩
      rw [h3] at h5
      cases h5
  · rintro ⟨⟨x, hx, hl⟩, hall⟩
    rcases hv with e0 | ⟨hl', y, hy, ey⟩
    · have h3 := low _ ⟨x, hx, rfl⟩
      rw [e0] at h3
      exact absurd (h3.symm.trans hl) (by decide)
    · refine (rnd32_negZero hl').2 ?_
      rw [← ey]
      exact hall y hy

theorem Hull.noNegZero_max {mn mx : Vec3 F64} {P : Vec3 F64 → Prop} (h : Hull mn mx P) :
    NoNegZero mx := by
  rw [noNegZero_iff]
  intro c
  rcases (h c).2.2 with e | ⟨hl, -⟩
  · rw [e, rnd32_zero]; decide
  · exact (plainZero_self _).1 (rnd32_above hl).1

theorem map_self_iff {α : Type} {f : α → α} {l : List α} : l.map f = l ↔ ∀ a ∈ l, f a = a := by
  induction l with
  | nil => simp
  | cons a l ih => simp [ih]

theorem option_self {v : Option (Vec3 F64)} :
    (v.map (Vec3.map rnd32)).map (Vec3.map plainZero) = v.map (Vec3.map rnd32) ↔
      ∀ u, v = some u → NoNegZero u := by
  cases v <;> simp [NoNegZero]

theorem rounded_self_iff (m : Mesh F64) : (m.map rnd32).mapBounds plainZero = m.map rnd32 ↔
    ∀ g ∈ m.geoms, ∀ l ∈ g.lods, NoNegZero l.min ∧ NoNegZero l.max ∧
      ∀ a ∈ l.materials, (∀ u, a.mmin = some u → NoNegZero u) ∧ ∀ u, a.mmax = some u → NoNegZero u := by
  have e1 : ((m.map rnd32).mapBounds plainZero = m.map rnd32) ↔
      ((m.map rnd32).mapBounds plainZero).geoms = (m.map rnd32).geoms :=
    ⟨fun h => by rw [h], fun h => by
      unfold Mesh.mapBounds at h ⊢
      rw [Mesh.mk.injEq]
      simp only [true_and, and_true]
      exact h⟩
  rw [e1]
  simp only [Mesh.mapBounds, map_self_iff]
  simp only [Mesh.map, List.forall_mem_map]
  refine forall₂_congr fun g _ => ?_
  simp only [Geom.map, Geom.mk.injEq, true_and, map_self_iff, List.forall_mem_map]
  refine forall₂_congr fun l _ => ?_
  simp only [Lod.mapBounds, Lod.map, Lod.mk.injEq, true_and, map_self_iff,
    List.forall_mem_map]
  refine and_congr Iff.rfl (and_congr Iff.rfl ?_)
  refine forall₂_congr fun a _ => ?_
  simp only [Mat.map, Mat.mk.injEq, true_and, option_self]

theorem rounded_self {vs o : Nat} {m M : Mesh F64} (h : BoundsAre Hull vs o m M) :
    (M.map rnd32).mapBounds plainZero = M.map rnd32 ↔
      ∀ a ∈ m.mats, ∀ c, ¬ JustBelow (PosOf vs o m a) c := by
  rw [rounded_self_iff]
  constructor
  · intro hf a ha
    obtain ⟨g, hg, ha⟩ := List.mem_flatMap.1 ha
    obtain ⟨l, hl, ha⟩ := List.mem_flatMap.1 ha
    obtain ⟨g', hg', h1⟩ := forall₂_mem_left h hg
    obtain ⟨l', hl', -, h2⟩ := forall₂_mem_left h1 hl
    obtain ⟨a', ha', mn, mx, e1, e2, h3⟩ := forall₂_mem_left h2 ha
    exact h3.noNegZero_min.1 (((hf g' hg' l' hl').2.2 a' ha').1 mn e1)
  · intro hf g' hg' l' hl'
    obtain ⟨g, hg, h1⟩ := forall₂_mem_right h hg'
    obtain ⟨l, hl, h2, h3⟩ := forall₂_mem_right h1 hl'
    have hmem : ∀ a ∈ l.materials, a ∈ m.mats := fun a ha =>
      List.mem_flatMap.2 ⟨g, hg, List.mem_flatMap.2 ⟨l, hl, ha⟩⟩
    refine ⟨h2.noNegZero_min.2 ?_, h2.noNegZero_max, fun a' ha' => ?_⟩
    · rintro c ⟨⟨x, ⟨a, ha, hx⟩, hlt⟩, hall⟩
      exact hf a (hmem a ha) c ⟨⟨x, hx, hlt⟩, fun y hy => hall y ⟨a, ha, hy⟩⟩
    · obtain ⟨a, ha, mn, mx, e1, e2, h4⟩ := forall₂_mem_right h3 ha'
      rw [e1, e2]
      refine ⟨fun u hu => ?_, fun u hu => ?_⟩
      · cases hu
        exact h4.noNegZero_min.2 (hf a (hmem a ha))
      · cases hu
        exact h4.noNegZero_max

/-! ## Save and read -/

theorem Boundable.update {vs o : Nat} {m : Mesh F64} (u : Boundable vs o m) :
    Boundable vs o (updateBoundaries m).1 := by
  obtain ⟨p, hp⟩ := u.position
  have f := update_format m
  exact ⟨by rw [f.vattrs]; exact u.size, ⟨p, hp.congr f.vattrs f.vertformat⟩,
    u.known.congr f.vattrs f.vertformat, update_inside u.inside⟩

theorem Boundable.map {vs o : Nat} {m : Mesh F64} (u : Boundable vs o m) (f : F64 → F64) :
    Boundable vs o (m.map f) := by
  obtain ⟨p, hp⟩ := u.position
  exact ⟨u.size, ⟨p, hp.congr rfl rfl⟩, u.known.congr rfl rfl, inside_map u.inside⟩

theorem Boundable.ok {vs o : Nat} {m : Mesh F64} (u : Boundable vs o m) :
    updateBoundaries m = ((updateBoundaries m).1, none) := by
  obtain ⟨p, hp⟩ := u.position
  exact Prod.ext rfl (update_ok u.size hp u.known u.inside)

theorem Boundable.again {vs o : Nat} {m : Mesh F64} (u : Boundable vs o m) :
    updateBoundaries (updateBoundaries m).1 = ((updateBoundaries m).1, none) := by
  rw [update_idem]; exact u.ok

theorem saved_eq {pl : Plat} {m s : Mesh F64} {bs : Bytes} (w : MeshWF m)
    (he : exportMesh pl (updateBoundaries m).1 = ⟨bs, none⟩) (hl : load pl m.kind bs = .ok s) :
    s = (updateBoundaries m).1.map rnd32 := by
  have h := C02_reload_of_export pl _ bs (update_wf rfl w) he
  rw [(update_format m).kind, hl] at h
  exact Except.ok.inj h

theorem saved_update {pl : Plat} {vs o : Nat} {m s : Mesh F64} {bs : Bytes} (w : MeshWF m)
    (b : Bounded m) (u : Boundable vs o m) (he : exportMesh pl (updateBoundaries m).1 = ⟨bs, none⟩)
    (hl : load pl m.kind bs = .ok s) : updateBoundaries s = (s.mapBounds plainZero, none) := by
  rw [saved_eq w he hl]
  have u' := u.update
  obtain ⟨p, hp⟩ := u'.position
  have f := update_format m
  exact update_rounded ⟨by rw [f.kind]; exact b.1, by rw [f.head]; exact b.2⟩ u'.size hp u'.known
    u'.inside u.again

theorem exported_many {pl : Plat} {m : Mesh F64} {bs : Bytes} (he : exportMesh pl m = ⟨bs, none⟩) :
    ∃ l, m.index = .many l := by
  cases hi : m.index with
  | many l => exact ⟨l, rfl⟩
  | one a =>
    exfalso
    have h1 : (exportMesh pl m).err = none := by rw [he]
    have h2 : (exportIndex pl m.index).err = none := by
      simp only [exportMesh, all_cons_err] at h1
      exact h1.2.2.2.2.2.2.2.2.2.2.2.1
    rw [hi] at h2
    simp [exportIndex] at h2

/-- A mesh just read can be saved with new bounds. -/
theorem update_exports {pl : Plat} {k : Kind} {file : Bytes} {m : Mesh F64}
    (hl : load pl k file = .ok m) (hi : ∃ l, m.index = .many l) :
    ∃ bs, exportMesh pl (updateBoundaries m).1 = ⟨bs, none⟩ := by
  obtain ⟨l, hi⟩ := hi
  have w := (C06_loaded_wf pl k file m hl).1
  have r := update_inRange (C07_integers_in_range pl k file m hl)
  have z : Vec3 F64 := ⟨F64.zero, F64.zero, F64.zero⟩
  have hi' : (updateBoundaries m).1.index = .many l := by
    have h5 := congrArg Mesh.index (update_erase z m)
    exact Eq.trans h5 hi
  exact ⟨(exportMesh pl (updateBoundaries m).1).bytes, by
    rw [← (exportMesh_err (update_wf rfl w) hi').2 r]⟩

theorem mapBounds_map {f g : F64 → F64} (h : ∀ x, f (g (f x)) = g (f x)) (hf : ∀ x, f (f x) = f x)
    (m : Mesh F64) : ((m.map f).mapBounds g).map f = (m.map f).mapBounds g := by
  have v1 : ∀ v : Vec3 F64, ((v.map f).map g).map f = (v.map f).map g := fun v => by
    simp only [Vec3.map, h]
  have v2 : ∀ v : Option (Vec3 F64), ((v.map (Vec3.map f)).map (Vec3.map g)).map (Vec3.map f) =
      (v.map (Vec3.map f)).map (Vec3.map g) := fun v => by
    cases v with
    | none => rfl
    | some v => exact congrArg some (v1 v)
  have e : f ∘ f = f := funext hf
  have e1 := Mesh.map_map f f m
  rw [e] at e1
  have hg : ∀ x ∈ m.geoms, ({ x.map f with lods := (x.map f).lods.map (Lod.mapBounds g) } : Geom F64).map f =
      { x.map f with lods := (x.map f).lods.map (Lod.mapBounds g) } := by
    intro x _
    simp only [Geom.map, List.map_map, Geom.mk.injEq, true_and]
    refine List.map_congr_left fun l _ => ?_
    have e2 := Lod.map_map f f l
    rw [e] at e2
    have p1 := congrArg Lod.pivot e2
    have p2 := congrArg Lod.rigs e2
    have p3 := congrArg Lod.nodes e2
    simp only [Function.comp, Lod.mapBounds, Lod.map, Lod.mk.injEq, true_and, v1] at p1 p2 p3 ⊢
    refine ⟨p1, p2, p3, ?_⟩
    simp only [List.map_map]
    refine List.map_congr_left fun a _ => ?_
    simp only [Function.comp, Mat.map, v2]
  have q1 := congrArg Mesh.vertices e1
  simp only [Mesh.mapBounds, Mesh.map, Mesh.mk.injEq, true_and, and_true] at q1 ⊢
  refine ⟨?_, q1⟩
  simp only [List.map_map]
  exact List.map_congr_left hg

end Bf2
