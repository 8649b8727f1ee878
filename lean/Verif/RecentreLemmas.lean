import Verif.RecentreSpec
import Verif.Props.BoundsAlgebra

/-! # Lemmas for C188 -/

namespace Bf2

noncomputable section

/-- The least and the greatest of zero and the coordinates. -/
theorem hull_reaches {mn mx : Vec3 ℝ} {P : Vec3 ℝ → Prop} (h : Hull mn mx P) {i : Fin 3} {lo hi : ℝ}
    (r : Reaches P i lo hi) : mn.comp i = min 0 lo ∧ mx.comp i = max 0 hi := by
  have z : (FArith.zero : ℝ) = 0 := rfl
  obtain ⟨⟨a1, a2⟩, b1, b2⟩ := h i
  simp only [lt_real, not_lt_real, z] at a1 a2 b1 b2
  obtain ⟨x, hx, ex⟩ := r.low
  obtain ⟨y, hy, ey⟩ := r.high
  have c1 := a1 _ ⟨x, hx, ex⟩
  have c2 := b1 _ ⟨y, hy, ey⟩
  constructor
  · rcases a2 with e | ⟨e, w, hw, ew⟩
    · rw [e, min_eq_left (by rw [← e]; exact c1)]
    · have := (r.between w hw).1
      rw [ew] at this
      rw [le_antisymm c1 this, min_eq_right]
      linarith
  · rcases b2 with e | ⟨e, w, hw, ew⟩
    · rw [e, max_eq_left (by rw [← e]; exact c2)]
    · have := (r.between w hw).2
      rw [ew] at this
      rw [← le_antisymm c2 this, max_eq_right]
      linarith

/-- One round. -/
theorem centre_step {vs o : Nat} {p : VAttr} {geomId lodId : Int} {j k : Nat} {m : Mesh ℝ} {g : Geom ℝ} {l : Lod ℝ}
    (H : LodOf vs o p geomId lodId j k m g l) :
    ∃ (mu m1 : Mesh ℝ) (c : Vec3 ℝ) (g' : Geom ℝ) (l' : Lod ℝ), getLodCenterOffset m geomId lodId true = (mu, .ok c) ∧
      translate mu [-c.x, -c.y, -c.z] = (m1, none) ∧ LodOf vs o p geomId lodId j k m1 g' l' ∧
      ∀ i lo hi, Reaches (fun x => ∃ a ∈ l.materials, PosOf vs o m a x) i lo hi →
        c.comp i = (min 0 lo + max 0 hi) / 2 ∧
        Reaches (fun x => ∃ a ∈ l'.materials, PosOf vs o m1 a x) i (lo - c.comp i) (hi - c.comp i) := by
  obtain ⟨tiled, hb, first, hpos, known, hj, hg, hk, hl⟩ := H
  have hu : updateBoundaries m = ((updateBoundaries m).1, none) :=
    Prod.ext rfl (C45_update_succeeds tiled.size hpos known tiled.inside)
  have ht := update_tiledVerts tiled
  obtain ⟨gs, he, -⟩ := update_bounded m
  obtain ⟨g', l', hg', hl', her⟩ := C49_place_kept hu hg hl
  generalize (updateBoundaries m).1 = mu at *
  have hvert : mu.vertices = m.vertices := by rw [he]
  have hattr : mu.vattrs = m.vattrs := by rw [he]
  have hfmt : mu.vertformat = m.vertformat := by rw [he]
  have A := update_hull hb tiled.size hpos tiled.inside hu
  obtain ⟨g1, hg1, A1⟩ := forall₂_getElem? A hg
  obtain rfl : g' = g1 := Option.some.inj (hg'.symm.trans hg1)
  obtain ⟨l1, hl1, A2, -⟩ := forall₂_getElem? A1 hl
  obtain rfl : l' = l1 := Option.some.inj (hl'.symm.trans hl1)
  have hcen := C49_center_updated hu hj hg hk hg' hl'
  generalize hc : (⟨FArith.half (FArith.add l'.min.x l'.max.x), FArith.half (FArith.add l'.min.y l'.max.y),
       FArith.half (FArith.add l'.min.z l'.max.z)⟩ : Vec3 ℝ) = c at hcen
  have htr : translate mu [-c.x, -c.y, -c.z] = _ :=
    translate_tiled (o := o) ht (by rw [hattr]; exact first) (by rw [hfmt]; exact hpos.start) hpos.fits
  generalize hm1 : ({ mu with vertices := movedAll vs o [-c.x, -c.y, -c.z] mu.vertices } : Mesh ℝ) = m1 at htr
  have g1 : m1.geoms = mu.geoms := by rw [← hm1]
  refine ⟨mu, m1, c, g', l', hcen, htr, ⟨?_, ?_, ?_, ?_, ?_, ?_, ?_, ?_, hl'⟩, fun i lo hi r => ?_⟩
  · rw [← hm1]
    exact ⟨ht.pos, ht.size, ht.nonneg, ht.start, by simp only [movedAll_length]; exact ht.total⟩
  · rw [← hm1, he]; exact hb
  · rw [← hm1]; simpa only [hattr] using first
  · rw [← hm1]
    exact ⟨by simpa only [hattr] using hpos.last, by simpa only [hfmt] using hpos.start, hpos.wide, hpos.fits⟩
  · rw [← hm1, he]; exact known
  · rw [g1, ← A.length_eq]; exact hj
  · rw [g1]; exact hg'
  · rw [← A1.length_eq]; exact hk
  have hP := posOf_congr (vs := vs) (o := o) hvert her
  have there : ∀ x, (∃ a ∈ l.materials, PosOf vs o m a x) → ∃ x', (∃ a ∈ l'.materials, PosOf vs o m1 a x') ∧
      x'.comp i = x.comp i - c.comp i := by
    intro x hx
    obtain ⟨a, ha, v, hv, hx⟩ := (hP x).2 hx
    refine ⟨⟨x.x + -c.x, x.y + -c.y, x.z + -c.z⟩, ⟨a, ha, v, hv, ?_⟩, ?_⟩
    · rw [← hm1]
      simp only
      rw [vec3At_moved hpos.fits, hx, Option.map_some]
      rfl
    · rw [sub_eq_add_neg]; fin_cases i <;> rfl
  have back : ∀ x', (∃ a ∈ l'.materials, PosOf vs o m1 a x') → ∃ x, (∃ a ∈ l.materials, PosOf vs o m a x) ∧
      x'.comp i = x.comp i - c.comp i := by
    rintro x' ⟨a, ha, v, hv, hx⟩
    rw [← hm1] at hx
    simp only at hx
    rw [vec3At_moved hpos.fits, Option.map_eq_some_iff] at hx
    obtain ⟨x, hx, rfl⟩ := hx
    refine ⟨x, (hP x).1 ⟨a, ha, v, hv, hx⟩, ?_⟩
    rw [sub_eq_add_neg]; fin_cases i <;> rfl
  constructor
  · obtain ⟨e1, e2⟩ := hull_reaches A2 r
    rw [← e1, ← e2, ← hc]
    fin_cases i <;> rfl
  · refine ⟨fun x' hx' => ?_, ?_, ?_⟩
    · obtain ⟨x, hx, e⟩ := back x' hx'
      have := r.between x hx
      rw [e]
      exact ⟨by linarith, by linarith⟩
    · obtain ⟨x, hx, e⟩ := r.low
      obtain ⟨x', hx', e'⟩ := there x hx
      exact ⟨x', hx', by rw [e', e]⟩
    · obtain ⟨x, hx, e⟩ := r.high
      obtain ⟨x', hx', e'⟩ := there x hx
      exact ⟨x', hx', by rw [e', e]⟩

end

end Bf2
