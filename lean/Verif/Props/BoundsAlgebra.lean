import Verif.BoundsAlgebraLemmas
import Verif.Props.Bounds
import Verif.Props.Readme

/-!
# Bounds of edited meshes (C116) and centring a lod (C117)
-/

namespace Bf2

variable {F : Type}

/-! ## C116: updated bounds are exactly determined -/

section
variable [FArith F] [LawfulOrder F]

/-- Updated bounds of a lod (a material) are the box around the origin and its vertices: below, in
each component, is the least of `0.0` and the vertex components, as the same float. -/
theorem C116_bounds_exact {vs o : Nat} {m m' : Mesh F} {p : VAttr} (hb : Bounded m)
    (hsz : VertexSize m.vattrs vs) (hpos : PositionAt vs o m p)
    (hin : ∀ a ∈ m.mats, VertsInside vs m a) (h : updateBoundaries m = (m', none)) :
    BoundsAre Hull vs o m m' :=
  update_hull hb hsz hpos hin h

/-- There is only one such box. -/
theorem C116_box_unique {mn mx mn' mx' : Vec3 F} {P : Vec3 F → Prop} (h : Hull mn mx P)
    (h' : Hull mn' mx' P) : mn = mn' ∧ mx = mx' :=
  h.unique (fun _ => Iff.rfl) h'

/-- The box of a lod is the box around the boxes of its materials. -/
theorem C116_lod_around_materials {vs o : Nat} {m m' : Mesh F} {p : VAttr} (hb : Bounded m)
    (hsz : VertexSize m.vattrs vs) (hpos : PositionAt vs o m p)
    (hin : ∀ a ∈ m.mats, VertsInside vs m a) (h : updateBoundaries m = (m', none)) :
    ∀ g' ∈ m'.geoms, ∀ l' ∈ g'.lods, Hull l'.min l'.max (fun x => ∃ a' ∈ l'.materials,
      a'.mmin = some x ∨ a'.mmax = some x) := by
  intro g' hg' l' hl'
  obtain ⟨g, -, hg⟩ := forall₂_mem_right (update_hull hb hsz hpos hin h) hg'
  obtain ⟨l, -, hl, hmats⟩ := forall₂_mem_right hg hl'
  have corner_mem : ∀ a' ∈ l'.materials, ∀ mn mx, a'.mmin = some mn → a'.mmax = some mx →
      ∃ a ∈ l.materials, Hull mn mx (PosOf vs o m a) := by
    intro a' ha' mn mx e1 e2
    obtain ⟨a, ha, mn1, mx1, h1, h2, h3⟩ := forall₂_mem_right hmats ha'
    rw [e1] at h1; rw [e2] at h2
    cases h1; cases h2
    exact ⟨a, ha, h3⟩
  have both : ∀ a' ∈ l'.materials, ∃ mn mx, a'.mmin = some mn ∧ a'.mmax = some mx := by
    intro a' ha'
    obtain ⟨a, ha, mn1, mx1, h1, h2, -⟩ := forall₂_mem_right hmats ha'
    exact ⟨mn1, mx1, h1, h2⟩
  have back : ∀ a ∈ l.materials, ∃ a' ∈ l'.materials, ∃ mn mx, a'.mmin = some mn ∧
      a'.mmax = some mx ∧ Hull mn mx (PosOf vs o m a) := by
    intro a ha
    obtain ⟨i, hi⟩ := List.mem_iff_getElem?.1 ha
    obtain ⟨a', ha', h1⟩ := forall₂_getElem? hmats hi
    exact ⟨a', List.mem_of_getElem? ha', h1⟩
  intro c
  obtain ⟨hlo, hhi⟩ := hl c
  have zlo : FArith.lt FArith.zero (l'.min.comp c) = false := by
    rcases hlo.2 with e | ⟨e, -⟩
    · rw [e]; exact LawfulLt.irrefl _
    · exact lt_asymm' e
  have zhi : FArith.lt (l'.max.comp c) FArith.zero = false := by
    rcases hhi.2 with e | ⟨e, -⟩
    · rw [e]; exact LawfulLt.irrefl _
    · exact lt_asymm' e
  -- corners of material boxes are the origin or vertices
  have each : ∀ x : Vec3 F, (∃ a' ∈ l'.materials, a'.mmin = some x ∨ a'.mmax = some x) →
      x.comp c = FArith.zero ∨ ∃ y, (∃ a ∈ l.materials, PosOf vs o m a y) ∧ y.comp c = x.comp c := by
    rintro x ⟨a', ha', hx⟩
    obtain ⟨mn, mx, e1, e2⟩ := both a' ha'
    obtain ⟨a, ha, hH⟩ := corner_mem a' ha' mn mx e1 e2
    rcases hx with hx | hx
    · rw [hx] at e1; cases e1
      rcases (hH c).1.2 with e | ⟨-, y, hy, e⟩
      · exact Or.inl e
      · exact Or.inr ⟨y, ⟨a, ha, hy⟩, e⟩
    · rw [hx] at e2; cases e2
      rcases (hH c).2.2 with e | ⟨-, y, hy, e⟩
      · exact Or.inl e
      · exact Or.inr ⟨y, ⟨a, ha, hy⟩, e⟩
  refine ⟨⟨?_, ?_⟩, ⟨?_, ?_⟩⟩
  · rintro t ⟨x, hx, rfl⟩
    rcases each x hx with e | ⟨y, hy, e⟩
    · rw [e]; exact zlo
    · exact hlo.1 _ ⟨y, hy, e⟩
  · rcases hlo.2 with e | ⟨e, y, ⟨a, ha, hy⟩, e'⟩
    · exact Or.inl e
    · obtain ⟨a', ha', mn, mx, e1, e2, hH⟩ := back a ha
      refine Or.inr ⟨e, mn, ⟨a', ha', Or.inl e1⟩, ?_⟩
      have h1 : FArith.lt (l'.min.comp c) (mn.comp c) = false := by
        rw [← e']; exact (hH c).1.1 _ ⟨y, hy, rfl⟩
      rcases (hH c).1.2 with e0 | ⟨e0, z, hz, ez⟩
      · rw [e0, e] at h1; cases h1
      · refine LawfulOrder.tie_neg _ _ e0 e ?_ h1
        rw [← ez]
        exact hlo.1 _ ⟨z, ⟨a, ha, hz⟩, rfl⟩
  · rintro t ⟨x, hx, rfl⟩
    rcases each x hx with e | ⟨y, hy, e⟩
    · rw [e]; exact zhi
    · exact hhi.1 _ ⟨y, hy, e⟩
  · rcases hhi.2 with e | ⟨e, y, ⟨a, ha, hy⟩, e'⟩
    · exact Or.inl e
    · obtain ⟨a', ha', mn, mx, e1, e2, hH⟩ := back a ha
      refine Or.inr ⟨e, mx, ⟨a', ha', Or.inr e2⟩, ?_⟩
      have h1 : FArith.lt (mx.comp c) (l'.max.comp c) = false := by
        rw [← e']; exact (hH c).2.1 _ ⟨y, hy, rfl⟩
      rcases (hH c).2.2 with e0 | ⟨e0, z, hz, ez⟩
      · rw [e0, e] at h1; cases h1
      · refine LawfulOrder.tie_pos _ _ e0 e h1 ?_
        rw [← ez]
        exact hhi.1 _ ⟨z, ⟨a, ha, hz⟩, rfl⟩

/-- After a merge, the updated bounds of every lod and material are the box around the updated
bounds it has in the two meshes. -/
theorem C116_merge_bounds {vs o : Nat} {m n m' mu nu mu' : Mesh F} {ix nx : List Int} {p : VAttr}
    (inside : Inside vs m) (inside' : Inside vs n) (many : m.index = .many ix)
    (many' : n.index = .many nx) (hb : Bounded m) (hb' : Bounded n)
    (hpos : PositionAt vs o m p) (hpos' : PositionAt vs o n p)
    (ok : merge m n = (m', .ok .done)) (hu : updateBoundaries m = (mu, none))
    (hnu : updateBoundaries n = (nu, none)) (hu' : updateBoundaries m' = (mu', none)) :
    BoundsAround mu nu mu' := by
  obtain ⟨hc, -, hm⟩ := merge_done inside inside' many many' ok
  have hin' := (hm.tiled inside inside').1.inside
  have hb2 : Bounded m' := by rw [hm.rest]; exact hb
  have hp2 : PositionAt vs o m' p := by
    refine ⟨?_, ?_, hpos.wide, hpos.fits⟩
    · rw [hm.rest]; exact hpos.last
    · rw [hm.rest]; exact hpos.start
  have hs2 : VertexSize m'.vattrs vs := by rw [hm.rest]; exact inside.size
  have A := update_hull hb inside.size hpos inside.verts hu
  have B := update_hull hb' inside'.size hpos' inside'.verts hnu
  have C := update_hull hb2 hs2 hp2 hin' hu'
  have D := hm.lods hc inside inside'
  have fits := hpos.fits
  -- materials of a lod with their place in the mesh
  have mem : ∀ {x : Mesh F} {g : Geom F} {l : Lod F} {a : Mat F}, g ∈ x.geoms → l ∈ g.lods →
      a ∈ l.materials → a ∈ x.mats := fun {x g l a} hg hl ha =>
    List.mem_flatMap.2 ⟨g, hg, List.mem_flatMap.2 ⟨l, hl, ha⟩⟩
  have A' := forall₂_imp_mem A (S := fun g g' => g ∈ m.geoms ∧ _) fun g hg g' h => ⟨hg, h⟩
  have B' := forall₂_imp_mem B (S := fun g g' => g ∈ n.geoms ∧ _) fun g hg g' h => ⟨hg, h⟩
  have C' := forall₂_imp_mem C (S := fun g g' => g ∈ m'.geoms ∧ _) fun g hg g' h => ⟨hg, h⟩
  refine (forall₂_chain (forall₂_zip A' B') D C').imp ?_
  rintro ⟨g1, g2⟩ g3 ⟨⟨k1, k2⟩, k3, ⟨⟨hk1, h1⟩, hk2, h2⟩, h4, hk3, h3⟩
  simp only at hk1 h1 hk2 h2 h4 hk3 h3 ⊢
  have h1' := forall₂_imp_mem h1 (S := fun l l' => l ∈ k1.lods ∧ _) fun l hl l' h => ⟨hl, h⟩
  have h2' := forall₂_imp_mem h2 (S := fun l l' => l ∈ k2.lods ∧ _) fun l hl l' h => ⟨hl, h⟩
  have h3' := forall₂_imp_mem h3 (S := fun l l' => l ∈ k3.lods ∧ _) fun l hl l' h => ⟨hl, h⟩
  refine (forall₂_chain (forall₂_zip h1' h2') h4 h3').imp ?_
  rintro ⟨l1, l2⟩ l3 ⟨⟨q1, q2⟩, q3, ⟨⟨hq1, e1, e1'⟩, hq2, e2, e2'⟩, ⟨⟨len12, len13⟩, e4⟩, hq3, e3, e3'⟩
  simp only at hq1 e1 e1' hq2 e2 e2' len12 len13 e4 hq3 e3 e3' ⊢
  have point : ∀ (i : Nat) a b a', q1.materials[i]? = some a → q2.materials[i]? = some b →
      q3.materials[i]? = some a' → ∀ x,
      (PosOf vs o m' a' x ↔ PosOf vs o m a x ∨ PosOf vs o n b x) := by
    intro i a b a' ha hb ha' x
    have hz : (q1.materials.zip q2.materials)[i]? = some (a, b) := by
      rw [List.getElem?_zip_eq_some]; exact ⟨ha, hb⟩
    obtain ⟨a2, ha2, hmm⟩ := forall₂_getElem? e4 hz
    rw [ha'] at ha2
    cases ha2
    exact posOf_merged (inside.verts a (mem hk1 hq1 (List.mem_of_getElem? ha)))
      (inside'.verts b (mem hk2 hq2 (List.mem_of_getElem? hb)))
      (hin' a' (mem hk3 hq3 (List.mem_of_getElem? ha'))) fits hmm x
  have at1 : ∀ i : Nat, i < q1.materials.length → ∃ a b a', q1.materials[i]? = some a ∧
      q2.materials[i]? = some b ∧ q3.materials[i]? = some a' := fun i hi =>
    ⟨_, _, _, List.getElem?_eq_getElem hi, List.getElem?_eq_getElem (by omega),
      List.getElem?_eq_getElem (by omega)⟩
  constructor
  · refine e1.around e2 (fun x => ?_) e3
    constructor
    · rintro ⟨a', ha', hx⟩
      obtain ⟨i, hi⟩ := List.mem_iff_getElem?.1 ha'
      obtain ⟨a, b, a1, h1, h2, h3⟩ := at1 i (by
        have := (List.getElem?_eq_some_iff.1 hi).1; omega)
      rw [hi] at h3
      cases h3
      exact ((point i a b a' h1 h2 hi x).1 hx).imp (fun h => ⟨a, List.mem_of_getElem? h1, h⟩)
        fun h => ⟨b, List.mem_of_getElem? h2, h⟩
    · rintro (⟨a, ha, hx⟩ | ⟨b, hb, hx⟩)
      · obtain ⟨i, hi⟩ := List.mem_iff_getElem?.1 ha
        obtain ⟨a1, b, a', h1, h2, h3⟩ := at1 i (List.getElem?_eq_some_iff.1 hi).1
        rw [hi] at h1
        cases h1
        exact ⟨a', List.mem_of_getElem? h3, (point i a b a' hi h2 h3 x).2 (Or.inl hx)⟩
      · obtain ⟨i, hi⟩ := List.mem_iff_getElem?.1 hb
        obtain ⟨a, b1, a', h1, h2, h3⟩ := at1 i (by
          have := (List.getElem?_eq_some_iff.1 hi).1; omega)
        rw [hi] at h2
        cases h2
        exact ⟨a', List.mem_of_getElem? h3, (point i a b a' h1 hi h3 x).2 (Or.inr hx)⟩
  · apply forall₂_of_getElem?
    · rw [List.length_zip, ← e1'.length_eq, ← e2'.length_eq, ← e3'.length_eq]; omega
    · rintro i ⟨r1, r2⟩ r3 hr hr3
      rw [List.getElem?_zip_eq_some] at hr
      have hlt : i < q1.materials.length := by
        have := (List.getElem?_eq_some_iff.1 hr.1).1
        rw [← e1'.length_eq] at this; exact this
      obtain ⟨a, b, a', h1, h2, h3⟩ := at1 i hlt
      obtain ⟨x1, hx1, mn1, mx1, f1, g1, H1⟩ := forall₂_getElem? e1' h1
      obtain ⟨x2, hx2, mn2, mx2, f2, g2, H2⟩ := forall₂_getElem? e2' h2
      obtain ⟨x3, hx3, mn3, mx3, f3, g3, H3⟩ := forall₂_getElem? e3' h3
      rw [hr.1] at hx1; rw [hr.2] at hx2; rw [hr3] at hx3
      cases hx1; cases hx2; cases hx3
      exact ⟨mn1, mx1, mn2, mx2, mn3, mx3, f1, g1, f2, g2, f3, g3,
        H1.around H2 (point i a b a' h1 h2 h3) H3⟩

/-- Reordering takes the updated bounds along: the geom that the order puts at place `k` has the
updated bounds it had before. -/
theorem C116_reorder_bounds {vs o : Nat} {m m' mu mu' : Mesh F} {ix order : List Int} {js : List Nat}
    {p : VAttr} (inside : Inside vs m) (many : m.index = .many ix)
    (bound : (m.mats.map Mat.vnum).sum ≤ 2 ^ 53) (perm : Permutes m.geoms.length order js)
    (hb : Bounded m) (hpos : PositionAt vs o m p) (ok : changeGeomsOrder m order = (m', none))
    (hu : updateBoundaries m = (mu, none)) (hu' : updateBoundaries m' = (mu', none))
    {k j : Nat} (hkj : js[k]? = some j) :
    ∃ g g', mu.geoms[j]? = some g ∧ mu'.geoms[k]? = some g' ∧
      g'.lods.map Lod.bounds = g.lods.map Lod.bounds := by
  obtain ⟨m1, h1, hrest, -, -, ht, -, -⟩ := changeGeomsOrder_kept inside many bound perm
  obtain ⟨m2, h2, -, -, hkept⟩ := C29_reorder_keeps_geoms inside many bound perm
  rw [ok] at h1 h2
  cases h1; cases h2
  obtain ⟨g0, g0', hg0, hg0', hk⟩ := hkept k j hkj
  have A := update_hull hb inside.size hpos inside.verts hu
  have C := update_hull (vs := vs) (o := o) (p := p) (by rw [hrest]; exact hb) ht.size
    ⟨by rw [hrest]; exact hpos.last, by rw [hrest]; exact hpos.start, hpos.wide, hpos.fits⟩
    ht.inside hu'
  obtain ⟨g, hg, hA⟩ := forall₂_getElem? A hg0
  obtain ⟨g', hg', hC⟩ := forall₂_getElem? C hg0'
  refine ⟨g, g', hg, hg', ?_⟩
  have mem : ∀ {x : Mesh F} {g : Geom F} {l : Lod F} {a : Mat F}, g ∈ x.geoms → l ∈ g.lods →
      a ∈ l.materials → a ∈ x.mats := fun {x g l a} hg hl ha =>
    List.mem_flatMap.2 ⟨g, hg, List.mem_flatMap.2 ⟨l, hl, ha⟩⟩
  have hA' := forall₂_imp_mem hA (S := fun l l' => l ∈ g0.lods ∧ _) fun l hl l' h => ⟨hl, h⟩
  have hC' := forall₂_imp_mem hC (S := fun l l' => l ∈ g0'.lods ∧ _) fun l hl l' h => ⟨hl, h⟩
  have key := (forall₂_chain hA' hk.lods hC').imp (S := fun (l l' : Lod F) => l'.bounds = l.bounds)
    (by
      rintro l l' ⟨q, q', ⟨hq, e1, e1'⟩, e2, hq', e3, e3'⟩
      have same : ∀ a ∈ q.materials, ∀ a' ∈ q'.materials, MatKept vs m m' a a' → ∀ x,
          (PosOf vs o m' a' x ↔ PosOf vs o m a x) := fun a ha a' ha' hmk x =>
        posOf_kept (inside.verts a (mem (List.mem_of_getElem? hg0) hq ha))
          (ht.inside a' (mem (List.mem_of_getElem? hg0') hq' ha')) hpos.fits hmk x
      have hlod := e3.unique (fun x => by
        constructor
        · rintro ⟨a', ha', hx⟩
          obtain ⟨i, hi⟩ := List.mem_iff_getElem?.1 ha'
          obtain ⟨a, ha, hmk⟩ := forall₂_getElem? e2.flip hi
          have ha := List.mem_of_getElem? ha
          exact ⟨a, ha, (same a ha a' ha' hmk x).1 hx⟩
        · rintro ⟨a, ha, hx⟩
          obtain ⟨i, hi⟩ := List.mem_iff_getElem?.1 ha
          obtain ⟨a', ha', hmk⟩ := forall₂_getElem? e2 hi
          have ha' := List.mem_of_getElem? ha'
          exact ⟨a', ha', (same a ha a' ha' hmk x).2 hx⟩) e1
      unfold Lod.bounds
      rw [hlod.1, hlod.2]
      congr 2
      apply List.ext_getElem?
      intro i
      rw [List.getElem?_map, List.getElem?_map]
      rcases hi : q.materials[i]? with _ | a
      · have n1 : l.materials[i]? = none := by
          rw [List.getElem?_eq_none_iff] at hi ⊢; rw [← e1'.length_eq]; exact hi
        have n2 : l'.materials[i]? = none := by
          rw [List.getElem?_eq_none_iff] at hi ⊢
          rw [← e3'.length_eq, ← e2.length_eq]; exact hi
        rw [n1, n2]
      · obtain ⟨a', ha', hmk⟩ := forall₂_getElem? e2 hi
        obtain ⟨b, hb, mn, mx, f1, f2, H⟩ := forall₂_getElem? e1' hi
        obtain ⟨b', hb', mn', mx', f1', f2', H'⟩ := forall₂_getElem? e3' ha'
        have := H'.unique (same a (List.mem_of_getElem? hi) a' (List.mem_of_getElem? ha') hmk) H
        rw [hb, hb', Option.map_some, Option.map_some, f1, f2, f1', f2', this.1, this.2])
  have hlen := key.length_eq
  apply List.ext_getElem?
  intro i
  rw [List.getElem?_map, List.getElem?_map]
  rcases hi : g.lods[i]? with _ | l
  · have : g'.lods[i]? = none := by
      rw [List.getElem?_eq_none_iff] at hi ⊢; omega
    rw [this]
  · obtain ⟨l', hl', e⟩ := forall₂_getElem? key hi
    rw [hl', Option.map_some, Option.map_some, e]

end

/-! Samples: `plainBox` and the same box on the other side of the origin. -/

def negBox : Mesh F64 := { plainBox with vertices := plainBox.vertices.map F64.negate }

theorem plainBox_position : PositionAt 8 0 plainBox ⟨0, 0, 2, 0⟩ :=
  ⟨⟨[], _, rfl, by decide, by decide⟩, show StartsAt 4 _ _ by decide, Or.inl rfl, by decide⟩

theorem negBox_position : PositionAt 8 0 negBox ⟨0, 0, 2, 0⟩ :=
  ⟨⟨[], _, rfl, by decide, by decide⟩, show StartsAt 4 _ _ by decide, Or.inl rfl, by decide⟩

theorem plainBox_inside : Inside 8 plainBox := ⟨by decide, ⟨[3, 3, 2], rfl, rfl⟩, by decide +kernel,
  by decide +kernel⟩

theorem negBox_inside : Inside 8 negBox := ⟨by decide, ⟨[3, 3, 2], rfl, rfl⟩, by decide +kernel,
  by decide +kernel⟩

/-- The hypotheses of the merge theorem hold, and its boxes are not trivial: the first lod has
(0, 0, 0) .. (0, 1, 2) in one mesh, (0, -1, -2) .. (0, 0, 0) in the other, and (0, -1, -2) ..
(0, 1, 2) in the merged mesh. -/
example : Inside 8 plainBox ∧ Inside 8 negBox ∧ Bounded plainBox ∧ Bounded negBox ∧
    PositionAt 8 0 plainBox ⟨0, 0, 2, 0⟩ ∧ PositionAt 8 0 negBox ⟨0, 0, 2, 0⟩ ∧
    (merge plainBox negBox).2 = .ok .done ∧ (updateBoundaries plainBox).2 = none ∧
    (updateBoundaries negBox).2 = none ∧
    (updateBoundaries (merge plainBox negBox).1).2 = none ∧
    ((updateBoundaries (merge plainBox negBox).1).1.geoms.flatMap (·.lods)).map
      (fun l => (l.min, l.max)) =
      [(⟨flt 0, (flt 1).negate, (flt 2).negate⟩, ⟨flt 0, flt 1, flt 2⟩),
       (⟨(flt 16).negate, (flt 17).negate, (flt 18).negate⟩, ⟨flt 16, flt 17, flt 18⟩)] :=
  ⟨plainBox_inside, negBox_inside, ⟨rfl, rfl⟩, ⟨rfl, rfl⟩, plainBox_position, negBox_position,
    by decide +kernel, by decide +kernel, by decide +kernel, by decide +kernel, by decide +kernel⟩

/-- The hypotheses of the reorder theorem hold. -/
example : Permutes plainBox.geoms.length [1, 0] [1, 0] ∧
    (plainBox.mats.map Mat.vnum).sum ≤ 2 ^ 53 ∧ (changeGeomsOrder plainBox [1, 0]).2 = none ∧
    ((updateBoundaries (changeGeomsOrder plainBox [1, 0]).1).1.geoms.flatMap (·.lods)).map
      (fun l => (l.min, l.max)) =
      [(⟨flt 0, flt 0, flt 0⟩, ⟨flt 16, flt 17, flt 18⟩), (⟨flt 0, flt 0, flt 0⟩, ⟨flt 0, flt 1, flt 2⟩)] :=
  ⟨⟨.cons (by unfold Names; decide) (.cons (by unfold Names; decide) .nil), by decide⟩,
    by decide +kernel, by decide +kernel, by decide +kernel⟩

/-! ## C117: centring a lod -/

/-- One axis: `a` .. `b` around the origin and the numbers in `P`, `a'` .. `b'` around the origin and
the same numbers less the middle of `a` .. `b`. -/
theorem centre_axis {P : ℝ → Prop} (hne : ∃ x, P x) {a b a' b' : ℝ} (ha : Lowest a P)
    (hb : Highest b P) (ha' : Lowest a' fun t => ∃ x, P x ∧ t = x + -((a + b) / 2))
    (hb' : Highest b' fun t => ∃ x, P x ∧ t = x + -((a + b) / 2)) :
    ((a' + b') / 2 = 0 ↔ (∃ x, P x ∧ x ≤ 0) ∧ ∃ x, P x ∧ 0 ≤ x) ∧
      |(a' + b') / 2| ≤ |(a + b) / 2| / 2 := by
  have z : (FArith.zero : ℝ) = 0 := rfl
  unfold Lowest Highest at *
  simp only [lt_real, not_lt_real, z] at ha hb ha' hb'
  obtain ⟨ha, ha0⟩ := ha
  obtain ⟨hb, hb0⟩ := hb
  obtain ⟨ha', ha0'⟩ := ha'
  obtain ⟨hb', hb0'⟩ := hb'
  have la : a ≤ 0 := by rcases ha0 with h | h; exact h.le; exact h.1.le
  have lb : 0 ≤ b := by rcases hb0 with h | h; exact h.ge; exact h.1.le
  have la' : a' ≤ 0 := by rcases ha0' with h | h; exact h.le; exact h.1.le
  have lb' : 0 ≤ b' := by rcases hb0' with h | h; exact h.ge; exact h.1.le
  by_cases hlo : ∃ x, P x ∧ x ≤ 0
  · by_cases hhi : ∃ x, P x ∧ 0 ≤ x
    · have pa : P a := by
        rcases ha0 with rfl | h
        · obtain ⟨x, hx, h0⟩ := hlo
          have := ha x hx
          rwa [le_antisymm h0 this] at hx
        · exact h.2
      have pb : P b := by
        rcases hb0 with rfl | h
        · obtain ⟨x, hx, h0⟩ := hhi
          have := hb x hx
          rwa [le_antisymm this h0] at hx
        · exact h.2
      have ea : a' = a + -((a + b) / 2) := by
        apply le_antisymm (ha' _ ⟨a, pa, rfl⟩)
        rcases ha0' with rfl | ⟨-, x, hx, rfl⟩
        · linarith
        · linarith [ha x hx]
      have eb : b' = b + -((a + b) / 2) := by
        refine le_antisymm ?_ (hb' _ ⟨b, pb, rfl⟩)
        rcases hb0' with rfl | ⟨-, x, hx, rfl⟩
        · linarith
        · linarith [hb x hx]
      have e : (a' + b') / 2 = 0 := by rw [ea, eb]; ring
      rw [e, abs_zero]
      exact ⟨⟨fun _ => ⟨hlo, hhi⟩, fun _ => rfl⟩, by positivity⟩
    · -- all numbers are negative
      have neg : ∀ x, P x → x < 0 := fun x hx => by
        by_contra hh; exact hhi ⟨x, hx, not_lt.1 hh⟩
      have eb : b = 0 := by
        rcases hb0 with h | ⟨h, hx⟩
        · exact h
        · exact absurd (neg b hx) (by linarith)
      subst eb
      have pa : a < 0 ∧ P a := by
        rcases ha0 with rfl | h
        · obtain ⟨x, hx⟩ := hne
          exact absurd (ha x hx) (not_le.2 (neg x hx))
        · exact h
      have e1 : a' = a / 2 := by
        apply le_antisymm
        · have := ha' _ ⟨a, pa.2, rfl⟩; linarith
        · rcases ha0' with rfl | ⟨-, x, hx, rfl⟩
          · linarith [pa.1]
          · linarith [ha x hx]
      have e2 : b' < - (a / 2) := by
        rcases hb0' with rfl | ⟨-, x, hx, rfl⟩
        · linarith [pa.1]
        · linarith [neg x hx]
      constructor
      · refine ⟨fun h => ?_, fun h => absurd h.2 hhi⟩
        linarith
      · rw [abs_le, abs_of_nonpos (by linarith [pa.1] : (a + 0) / 2 ≤ 0)]
        constructor <;> linarith [pa.1]
  · have pos : ∀ x, P x → 0 < x := fun x hx => by
      by_contra hh; exact hlo ⟨x, hx, not_lt.1 hh⟩
    have ea : a = 0 := by
      rcases ha0 with h | ⟨h, hx⟩
      · exact h
      · exact absurd (pos a hx) (by linarith)
    subst ea
    have pb : 0 < b ∧ P b := by
      rcases hb0 with rfl | h
      · obtain ⟨x, hx⟩ := hne
        exact absurd (hb x hx) (not_le.2 (pos x hx))
      · exact h
    have e1 : b' = b / 2 := by
      apply le_antisymm
      · rcases hb0' with rfl | ⟨-, x, hx, rfl⟩
        · linarith [pb.1]
        · linarith [hb x hx]
      · have := hb' _ ⟨b, pb.2, rfl⟩; linarith
    have e2 : - (b / 2) < a' := by
      rcases ha0' with rfl | ⟨-, x, hx, rfl⟩
      · linarith [pb.1]
      · linarith [pos x hx]
    constructor
    · refine ⟨fun h => ?_, fun h => absurd h.1 hlo⟩
      linarith
    · rw [abs_le, abs_of_nonneg (by linarith [pb.1] : 0 ≤ (0 + b) / 2)]
      constructor <;> linarith [pb.1]

theorem update_tiledVerts [FArith F] {vs : Nat} {m : Mesh F} (h : TiledVerts vs m) :
    TiledVerts vs (updateBoundaries m).1 := by
  obtain ⟨gs, he, hgs⟩ := update_bounded m
  have hr : (({ m with geoms := gs } : Mesh F).mats).map Mat.ranges = m.mats.map Mat.ranges := by
    refine flatMap_map_eq (fun g g' hg => flatMap_map_eq (fun l l' hl => ?_) hg.lods) hgs
    have := hl.mats
    generalize l.materials = as at this
    generalize l'.materials = bs at this
    induction this with
    | nil => rfl
    | cons h1 _ ih =>
      rw [List.map_cons, List.map_cons, ih, h1.fields]
      rfl
  rw [he]
  exact tiledVerts_congr h hr rfl rfl

theorem posOf_congr {vs o : Nat} {m m' : Mesh F} {l l' : Lod F} {z : Vec3 F}
    (hv : m'.vertices = m.vertices) (hl : Lod.eraseBounds z l' = Lod.eraseBounds z l) (x : Vec3 F) :
    (∃ a ∈ l'.materials, PosOf vs o m' a x) ↔ ∃ a ∈ l.materials, PosOf vs o m a x := by
  have hm := congrArg Lod.materials hl
  unfold Lod.eraseBounds at hm
  simp only at hm
  have key : ∀ {as bs : List (Mat F)} {m m' : Mesh F}, m'.vertices = m.vertices →
      as.map (fun a => ({ a with mmin := none, mmax := none } : Mat F)) =
        bs.map (fun a => ({ a with mmin := none, mmax := none } : Mat F)) →
      (∃ a ∈ as, PosOf vs o m' a x) → ∃ a ∈ bs, PosOf vs o m a x := by
    rintro as bs m m' hv h ⟨a, ha, hx⟩
    have : ({ a with mmin := none, mmax := none } : Mat F) ∈
        bs.map (fun a => ({ a with mmin := none, mmax := none } : Mat F)) := by
      rw [← h]; exact List.mem_map.2 ⟨a, ha, rfl⟩
    obtain ⟨b, hb, e⟩ := List.mem_map.1 this
    refine ⟨b, hb, ?_⟩
    have e1 := congrArg Mat.vnum e
    have e2 := congrArg Mat.vstart e
    simp only at e1 e2
    unfold PosOf at hx ⊢
    rw [e1, e2, ← hv]
    exact hx
  exact ⟨key hv hm, key hv.symm hm.symm⟩

/-- Exact arithmetic.  Translating a mesh by the negated centre offset of a lod: afterwards the
centre offset of the lod is zero on an axis exactly when the lod had vertices on both sides of the
origin (or on it) along this axis.  In any case it is at most half as large as before. -/
theorem C117_centring {vs o : Nat} {m : Mesh ℝ} {p : VAttr} {geomId lodId : Int} {j k : Nat}
    {g : Geom ℝ} {l : Lod ℝ} (tiled : TiledVerts vs m) (hb : Bounded m)
    (first : FirstPosition m.vattrs p) (hpos : PositionAt vs o m p) (known : AttrsKnown m)
    (hj : Names m.geoms.length geomId j) (hg : m.geoms[j]? = some g)
    (hk : Names g.lods.length lodId k) (hl : g.lods[k]? = some l)
    (some_vertex : ∃ x, ∃ a ∈ l.materials, PosOf vs o m a x) :
    ∃ (mu m1 m2 : Mesh ℝ) (c c' : Vec3 ℝ), getLodCenterOffset m geomId lodId true = (mu, .ok c) ∧
      translate mu [-c.x, -c.y, -c.z] = (m1, none) ∧
      getLodCenterOffset m1 geomId lodId true = (m2, .ok c') ∧
      ∀ i, (c'.comp i = 0 ↔ (∃ a ∈ l.materials, ∃ x, PosOf vs o m a x ∧ x.comp i ≤ 0) ∧
          ∃ a ∈ l.materials, ∃ x, PosOf vs o m a x ∧ 0 ≤ x.comp i) ∧
        |c'.comp i| ≤ |c.comp i| / 2 := by
  -- the first update
  have hu : updateBoundaries m = ((updateBoundaries m).1, none) :=
    Prod.ext rfl (C45_update_succeeds tiled.size hpos known tiled.inside)
  have ht := update_tiledVerts tiled
  obtain ⟨gs, he, -⟩ := update_bounded m
  obtain ⟨g', l', hg', hl', her⟩ := C49_place_kept hu hg hl
  generalize (updateBoundaries m).1 = mu at *
  have hvert : mu.vertices = m.vertices := by rw [he]
  have hattr : mu.vattrs = m.vattrs := by rw [he]
  have hfmt : mu.vertformat = m.vertformat := by rw [he]
  have A := update_hull hb tiled.size hpos tiled.inside hu
  obtain ⟨g1, hg1, A1⟩ := forall₂_getElem? A hg
  rw [hg'] at hg1
  cases hg1
  obtain ⟨l1, hl1, A2, -⟩ := forall₂_getElem? A1 hl
  rw [hl'] at hl1
  cases hl1
  have hcen := C49_center_updated hu hj hg hk hg' hl'
  -- the translation
  have htr : translate mu [-((l'.min.x + l'.max.x) / 2), -((l'.min.y + l'.max.y) / 2),
      -((l'.min.z + l'.max.z) / 2)] = _ :=
    translate_tiled (o := o) ht (by rw [hattr]; exact first) (by rw [hfmt]; exact hpos.start)
      hpos.fits
  generalize hm1 : ({ mu with vertices := movedAll vs o [-((l'.min.x + l'.max.x) / 2),
    -((l'.min.y + l'.max.y) / 2), -((l'.min.z + l'.max.z) / 2)] mu.vertices } : Mesh ℝ) = m1 at htr
  have g1 : m1.geoms = mu.geoms := by rw [← hm1]
  have t1 : TiledVerts vs m1 := by
    rw [← hm1]
    exact ⟨ht.pos, ht.size, ht.nonneg, ht.start, by simp only [movedAll_length]; exact ht.total⟩
  have p1 : PositionAt vs o m1 p := by
    rw [← hm1]
    exact ⟨by simpa only [hattr] using hpos.last, by simpa only [hfmt] using hpos.start, hpos.wide,
      hpos.fits⟩
  have b1 : Bounded m1 := by rw [← hm1, he]; exact hb
  have k1 : AttrsKnown m1 := by
    rw [← hm1, he]; exact known
  have hu1 : updateBoundaries m1 = ((updateBoundaries m1).1, none) :=
    Prod.ext rfl (C45_update_succeeds t1.size p1 k1 t1.inside)
  generalize (updateBoundaries m1).1 = m2 at hu1
  have hj1 : Names m1.geoms.length geomId j := by
    rw [g1]
    have : mu.geoms.length = m.geoms.length := A.length_eq.symm
    rw [this]; exact hj
  have hk1 : Names g'.lods.length lodId k := by
    rw [← A1.length_eq]; exact hk
  have hg1' : m1.geoms[j]? = some g' := by rw [g1]; exact hg'
  obtain ⟨g2, l2, hg2, hl2, -⟩ := C49_place_kept hu1 hg1' hl'
  have C := update_hull b1 t1.size p1 t1.inside hu1
  obtain ⟨g3, hg3, C1⟩ := forall₂_getElem? C hg1'
  rw [hg2] at hg3
  cases hg3
  obtain ⟨l3, hl3, C2, -⟩ := forall₂_getElem? C1 hl'
  rw [hl2] at hl3
  cases hl3
  have hcen1 := C49_center_updated hu1 hj1 hg1' hk1 hg2 hl2
  refine ⟨mu, m1, m2, _, _, hcen, htr, hcen1, ?_⟩
  -- the positions before and after
  have hP := posOf_congr (vs := vs) (o := o) hvert her
  have moved : ∀ x' : Vec3 ℝ, (∃ a ∈ l'.materials, PosOf vs o m1 a x') ↔
      ∃ x, (∃ a ∈ l.materials, PosOf vs o m a x) ∧
        ∀ i, x'.comp i = x.comp i + -((l'.min.comp i + l'.max.comp i) / 2) := by
    intro x'
    have step : ∀ a, PosOf vs o m1 a x' ↔ ∃ x, PosOf vs o mu a x ∧
        ∀ i, x'.comp i = x.comp i + -((l'.min.comp i + l'.max.comp i) / 2) := by
      intro a
      unfold PosOf
      rw [← hm1]
      simp only
      constructor
      · rintro ⟨v, hv, hx⟩
        rw [vec3At_moved hpos.fits, Option.map_eq_some_iff] at hx
        obtain ⟨x, hx, rfl⟩ := hx
        exact ⟨x, ⟨v, hv, hx⟩, fun i => by fin_cases i <;> rfl⟩
      · rintro ⟨x, ⟨v, hv, hx⟩, hi⟩
        refine ⟨v, hv, ?_⟩
        rw [vec3At_moved hpos.fits, hx, Option.map_some, Option.some.injEq]
        exact comp_ext fun i => by rw [hi i]; fin_cases i <;> rfl
    constructor
    · rintro ⟨a, ha, hx⟩
      obtain ⟨x, hx, hi⟩ := (step a).1 hx
      exact ⟨x, (hP x).1 ⟨a, ha, hx⟩, hi⟩
    · rintro ⟨x, hx, hi⟩
      obtain ⟨a, ha, hx⟩ := (hP x).2 hx
      exact ⟨a, ha, (step a).2 ⟨x, hx, hi⟩⟩
  intro i
  have key := centre_axis (P := fun t => ∃ x, (∃ a ∈ l.materials, PosOf vs o m a x) ∧ x.comp i = t)
    (by obtain ⟨x, hx⟩ := some_vertex; exact ⟨_, x, hx, rfl⟩) (A2 i).1 (A2 i).2
    (a' := l2.min.comp i) (b' := l2.max.comp i)
  have set' : (fun t => ∃ x, (∃ a ∈ l'.materials, PosOf vs o m1 a x) ∧ x.comp i = t) =
      fun t => ∃ s, (∃ x, (∃ a ∈ l.materials, PosOf vs o m a x) ∧ x.comp i = s) ∧
        t = s + -((l'.min.comp i + l'.max.comp i) / 2) := by
    funext t
    apply propext
    constructor
    · rintro ⟨x', hx', rfl⟩
      obtain ⟨x, hx, hi⟩ := (moved x').1 hx'
      exact ⟨_, ⟨x, hx, rfl⟩, hi i⟩
    · rintro ⟨s, ⟨x, hx, rfl⟩, rfl⟩
      refine ⟨⟨x.x + -((l'.min.x + l'.max.x) / 2), x.y + -((l'.min.y + l'.max.y) / 2),
        x.z + -((l'.min.z + l'.max.z) / 2)⟩, (moved _).2 ⟨x, hx, fun i => ?_⟩, ?_⟩ <;>
        fin_cases i <;> rfl
  have C3 := C2 i
  rw [set'] at C3
  obtain ⟨r1, r2⟩ := key C3.1 C3.2
  have e : ∀ a b : Vec3 ℝ, (⟨FArith.half (FArith.add a.x b.x), FArith.half (FArith.add a.y b.y),
      FArith.half (FArith.add a.z b.z)⟩ : Vec3 ℝ).comp i = (a.comp i + b.comp i) / 2 := by
    intro a b; fin_cases i <;> rfl
  rw [e, e]
  refine ⟨r1.trans ?_, r2⟩
  constructor
  · rintro ⟨⟨_, ⟨x, ⟨a, ha, hx⟩, rfl⟩, h0⟩, _, ⟨y, ⟨b, hb, hy⟩, rfl⟩, h1⟩
    exact ⟨⟨a, ha, x, hx, h0⟩, b, hb, y, hy, h1⟩
  · rintro ⟨⟨a, ha, x, hx, h0⟩, b, hb, y, hy, h1⟩
    exact ⟨⟨_, ⟨x, ⟨a, ha, hx⟩, rfl⟩, h0⟩, _, ⟨y, ⟨b, hb, hy⟩, rfl⟩, h1⟩

/-- The hypotheses hold for a real case: positions (1, -2, 3) and (3, 2, 3). -/
example : ∃ m : Mesh ℝ, TiledVerts 8 m ∧ Bounded m ∧ FirstPosition m.vattrs ⟨0, 0, 2, 0⟩ ∧
    PositionAt 8 0 m ⟨0, 0, 2, 0⟩ ∧ AttrsKnown m ∧ Names m.geoms.length 0 0 ∧
    ∃ g l, m.geoms[0]? = some g ∧ Names g.lods.length (-1) 0 ∧ g.lods[0]? = some l ∧
      ∃ x, ∃ a ∈ l.materials, PosOf 8 0 m a x := by
  have ht := rotatable_tiled (0 : ℝ) [1, -2, 3, 0, 0, 0, 0, 0, 3, 2, 3, 0, 0, 0, 0, 0] rfl
  refine ⟨boxed 0 [1, -2, 3, 0, 0, 0, 0, 0, 3, 2, 3, 0, 0, 0, 0, 0],
    ⟨ht.pos, ht.size, ht.nonneg, ht.start, ht.total⟩, boxed_bounded _ _,
    ⟨[], _, rfl, by decide, by decide⟩, boxed_position _ _, boxed_known _ _,
    by unfold Names; exact ⟨by simp [boxed, rotatable, meshOf], by simp⟩, _, _, rfl,
    by unfold Names; simp [geomOf], rfl, ⟨1, -2, 3⟩, matOf (0, 1, 0, 3), by simp, 0,
    by simp [matOf], rfl⟩

/-- Doubles, positions (1, 1, 1) and (3, 3, 3): the centre offset is (1.5, 1.5, 1.5), but after moving
the mesh back by it, it is (0.5, 0.5, 0.5), since the origin counts as a vertex. -/
def offCentre : Mesh F64 := boxed (flt 0) [flt 1, flt 1, flt 1, flt 0, flt 0, flt 0, flt 0, flt 0,
  flt 3, flt 3, flt 3, flt 0, flt 0, flt 0, flt 0, flt 0]

example : (getLodCenterOffset offCentre 0 0 true).2 =
      .ok ⟨F64.ofRat false (3 / 2), F64.ofRat false (3 / 2), F64.ofRat false (3 / 2)⟩ ∧
    (getLodCenterOffset (translate offCentre [F64.ofRat true (-3 / 2), F64.ofRat true (-3 / 2),
      F64.ofRat true (-3 / 2)]).1 0 0 true).2 =
      .ok ⟨F64.ofRat false (1 / 2), F64.ofRat false (1 / 2), F64.ofRat false (1 / 2)⟩ := by
  decide +kernel

end Bf2
