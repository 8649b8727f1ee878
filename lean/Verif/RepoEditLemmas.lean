import Verif.RepoTranslateLemmas
import Verif.MergeLemmas
import Verif.ReorderLemmas
import Verif.BoundsAlgebraLemmas

/-! # Lemmas for C123 -/

namespace Bf2

variable {F : Type}

/-! ## The merge test -/

theorem trav2_each {σ α β : Type} {f : σ → α → β → σ × α × Option Err} {P : α → β → α → Prop}
    (hf : ∀ s a b s' a', f s a b = (s', a', none) → P a b a') {s s' : σ} {l l' : List α} {r : List β}
    (h : trav2 f s l r = (s', l', none)) :
    ∀ (i : Nat) (a' : α), l'[i]? = some a' → ∃ a b, l[i]? = some a ∧ r[i]? = some b ∧ P a b a' := by
  induction l generalizing s l' r with
  | nil =>
    rw [trav2] at h
    cases h
    intro i a' ha
    simp at ha
  | cons a as ih =>
    rcases r with _ | ⟨b, bs⟩
    · rw [trav2] at h; cases h
    · rw [trav2] at h
      rcases h1 : f s a b with ⟨t, a1, _ | e⟩
      · rw [h1] at h
        simp only at h
        rcases h2 : trav2 f t as bs with ⟨u, as', e⟩
        rw [h2] at h
        cases h
        intro i a' ha
        rcases i with _ | i
        · cases ha
          exact ⟨a, b, rfl, rfl, hf _ _ _ _ _ h1⟩
        · exact ih h2 i a' ha
      · rw [h1] at h; cases h

/-- The numbers of a merged material. -/
def CountsAdd (a b a' : Mat F) : Prop := a'.vnum = b.vnum + a.vnum ∧ a'.inum = b.inum + a.inum

theorem mergeMat_counts {m o : Mesh F} {s s' : MergeSt F} {a b a' : Mat F}
    (h : mergeMat m o s a b = (s', a', none)) : CountsAdd a b a' := by
  unfold mergeMat at h
  split at h
  · cases h
  · split at h
    · cases h
    · split at h
      · cases h
      · split at h
        · cases h
        · cases h
          exact ⟨Int.add_comm _ _, Int.add_comm _ _⟩

/-- After a merge, whatever the meshes. -/
theorem merge_counts {m o m' : Mesh F} (h : merge m o = (m', .ok .done)) :
    ∀ (i j k : Nat) (a' : Mat F), matAt m' i j k = .ok a' →
      ∃ a b, matAt m i j k = .ok a ∧ matAt o i j k = .ok b ∧ CountsAdd a b a' := by
  unfold merge at h
  split at h
  · cases h
  · cases h
  · split at h
    · cases h
    · rename_i s gs ht
      have hg : m'.geoms = gs := by
        unfold mergeFinish at h
        split at h
        · cases h
        · cases h; rfl
      have hl : ∀ s l k s' l', mergeLod m o s l k = (s', l', none) → ∀ (i : Nat) a', l'.materials[i]? = some a' →
          ∃ a b, l.materials[i]? = some a ∧ k.materials[i]? = some b ∧ CountsAdd a b a' := by
        intro s l k s' l' h
        unfold mergeLod at h
        rcases h1 : trav2 (mergeMat m o) s l.materials k.materials with ⟨t, ms, e⟩
        rw [h1] at h
        cases h
        exact trav2_each (f := mergeMat m o) (fun _ _ _ _ _ h => mergeMat_counts h) h1
      have hgm : ∀ s g k s' g', mergeGeom m o s g k = (s', g', none) → ∀ (i : Nat) l', g'.lods[i]? = some l' →
          ∃ l n, g.lods[i]? = some l ∧ k.lods[i]? = some n ∧ ∀ (i : Nat) a', l'.materials[i]? = some a' →
            ∃ a b, l.materials[i]? = some a ∧ n.materials[i]? = some b ∧ CountsAdd a b a' := by
        intro s l k s' l' h
        unfold mergeGeom at h
        rcases h1 : trav2 (mergeLod m o) s l.lods k.lods with ⟨t, ms, e⟩
        rw [h1] at h
        cases h
        exact trav2_each hl h1
      have hall := trav2_each hgm ht
      intro i j k a' ha
      unfold matAt at ha ⊢
      rw [hg] at ha
      rcases e1 : gs[i]? with _ | g'
      · rw [e1] at ha; cases ha
      · rw [e1] at ha
        simp only at ha
        obtain ⟨g, g2, q1, q2, hg'⟩ := hall i g' e1
        rcases e2 : g'.lods[j]? with _ | l'
        · rw [e2] at ha; cases ha
        · rw [e2] at ha
          simp only at ha
          obtain ⟨l, l2, q3, q4, hl'⟩ := hg' j l' e2
          rcases e3 : l'.materials[k]? with _ | b'
          · rw [e3] at ha; cases ha
          · rw [e3] at ha
            cases ha
            obtain ⟨a, b, q5, q6, hc⟩ := hl' k a' e3
            refine ⟨a, b, ?_, ?_, hc⟩
            · rw [q1]; simp only; rw [q3]; simp only; rw [q5]
            · rw [q2]; simp only; rw [q4]; simp only; rw [q6]

theorem numbered_mem {α : Type} {l : List α} {p : Nat × α} : p ∈ numbered l ↔ l[p.1]? = some p.2 := by
  unfold numbered
  rw [List.mem_iff_getElem?]
  constructor
  · rintro ⟨i, hi⟩
    rw [List.getElem?_zip_eq_some] at hi
    obtain ⟨h1, h2⟩ := hi
    have := List.getElem?_range (n := l.length) (i := i)
    rw [List.getElem?_eq_some_iff] at h1
    obtain ⟨h3, h4⟩ := h1
    rw [List.getElem_range] at h4
    rw [← h4]
    exact h2
  · intro h
    refine ⟨p.1, List.getElem?_zip_eq_some.2 ⟨?_, h⟩⟩
    have hlt : p.1 < l.length := (List.getElem?_eq_some_iff.1 h).1
    rw [List.getElem?_range hlt]

theorem mergeTest_of {m o old : Mesh F} (h : ∀ (i j k : Nat) (a' : Mat F), matAt m i j k = .ok a' →
      ∃ a b, matAt old i j k = .ok a ∧ matAt o i j k = .ok b ∧ CountsAdd a b a') :
    mergeTest m o old = .ok true := by
  unfold mergeTest
  rw [assertEach_true]
  rintro ⟨i, g⟩ hg
  rw [assertEach_true]
  rintro ⟨j, l⟩ hl
  rw [assertEach_true]
  rintro ⟨k, a'⟩ ha
  rw [numbered_mem] at hg hl ha
  simp only at hg hl ha
  obtain ⟨a, b, h1, h2, h3⟩ := h i j k a' (by unfold matAt; rw [hg]; simp only; rw [hl]; simp only; rw [ha])
  unfold assertMergedMat
  simp only
  rw [h1, h2]
  simp only [Except.ok.injEq, decide_eq_true_eq]
  exact h3

theorem matAt_ok {m : Mesh F} {i j k : Nat} {a : Mat F} : matAt m i j k = .ok a ↔
    ∃ g l, m.geoms[i]? = some g ∧ g.lods[j]? = some l ∧ l.materials[k]? = some a := by
  unfold matAt
  constructor
  · intro h
    rcases e1 : m.geoms[i]? with _ | g
    · rw [e1] at h; cases h
    · rw [e1] at h
      simp only at h
      rcases e2 : g.lods[j]? with _ | l
      · rw [e2] at h; cases h
      · rw [e2] at h
        simp only at h
        rcases e3 : l.materials[k]? with _ | b
        · rw [e3] at h; cases h
        · rw [e3] at h
          cases h
          exact ⟨g, l, rfl, e2, e3⟩
  · rintro ⟨g, l, e1, e2, e3⟩
    rw [e1]; simp only; rw [e2]; simp only; rw [e3]

theorem forall₂_getElem?_right {α β : Type} {R : α → β → Prop} {l : List α} {r : List β}
    (h : List.Forall₂ R l r) {i : Nat} {b : β} (hb : r[i]? = some b) : ∃ a, l[i]? = some a ∧ R a b := by
  induction h generalizing i with
  | nil => simp at hb
  | cons h1 _ ih =>
    rcases i with _ | i
    · cases hb; exact ⟨_, rfl, h1⟩
    · exact ih hb

theorem update_matAt [FArith F] {m m' : Mesh F} (h : (updateBoundaries m).1 = m') {i j k : Nat} {a' : Mat F}
    (ha : matAt m' i j k = .ok a') : ∃ a, matAt m i j k = .ok a ∧ MatBounded m a a' := by
  obtain ⟨gs, hgs, hR⟩ := update_bounded m
  rw [h] at hgs
  have hR' : List.Forall₂ (GeomBounded m) m.geoms m'.geoms := by rw [hgs]; exact hR
  obtain ⟨g', l', e1, e2, e3⟩ := matAt_ok.1 ha
  obtain ⟨g, q1, hG⟩ := forall₂_getElem?_right hR' e1
  obtain ⟨l, q2, hL⟩ := forall₂_getElem?_right hG.lods e2
  obtain ⟨a, q3, hM⟩ := forall₂_getElem?_right hL.mats e3
  exact ⟨a, matAt_ok.2 ⟨g, l, q1, q2, q3⟩, hM⟩

/-! ## The order test -/

theorem data_length {vs : Nat} {m : Mesh F} (l : List (Mat F)) (h : ∀ a ∈ l, VertsInside vs m a) :
    (((l.flatMap (vertexData vs m)).length : Nat) : Int) = (l.map Mat.vnum).sum * vs := by
  induction l with
  | nil => simp
  | cons a l ih =>
    have := vertexData_length vs m a (h a (by simp))
    have ih := ih fun b hb => h b (by simp [hb])
    simp only [List.flatMap_cons, List.length_append, List.map_cons, List.sum_cons]
    push_cast
    rw [ih, this]
    push_cast
    rw [Int.toNat_of_nonneg (h a (by simp)).2.1]
    ring

theorem lods_sum (f : Mat F → Int) (ls : List (Lod F)) : (ls.map fun l => (l.materials.map f).sum).sum =
    ((ls.flatMap Lod.materials).map f).sum := by
  induction ls with
  | nil => rfl
  | cons l ls ih => simp [ih]

theorem getElem?_split {α : Type} {l : List α} {i : Nat} {a : α} (h : l[i]? = some a) :
    l = l.take i ++ a :: l.drop (i + 1) ∧ (l.take i).length = i := by
  obtain ⟨hi, rfl⟩ := List.getElem?_eq_some_iff.1 h
  refine ⟨?_, by rw [List.length_take]; omega⟩
  rw [← List.drop_eq_getElem_cons hi, List.take_append_drop]

theorem firstMat_start {vs : Nat} {m : Mesh F} (h : TiledVerts vs m) {j : Nat} {g : Geom F} {a : Mat F}
    (hg : m.geoms[j]? = some g) (ha : matAt m j 0 0 = .ok a) :
    a.vstart = (((m.geoms.take j).flatMap Geom.mats).map Mat.vnum).sum ∧ ∃ rest, g.mats = a :: rest := by
  obtain ⟨g1, l, e1, e2, e3⟩ := matAt_ok.1 ha
  rw [hg] at e1
  cases e1
  obtain ⟨rest, hr⟩ : ∃ rest, g.mats = a :: rest := by
    unfold Geom.mats
    rcases hl : g.lods with _ | ⟨l0, ls⟩
    · rw [hl] at e2; simp at e2
    · rw [hl] at e2
      cases e2
      rcases hm : l.materials with _ | ⟨a0, as⟩
      · rw [hm] at e3; simp at e3
      · rw [hm] at e3
        cases e3
        exact ⟨as ++ ls.flatMap Lod.materials, by simp [hm]⟩
  refine ⟨?_, rest, hr⟩
  have hm : m.mats = (m.geoms.take j).flatMap Geom.mats ++ a :: (rest ++ (m.geoms.drop (j + 1)).flatMap Geom.mats) := by
    unfold Mesh.mats
    conv_lhs => rw [(getElem?_split hg).1]
    simp [hr]
  have := h.start ((m.geoms.take j).flatMap Geom.mats).length a (by rw [hm]; simp)
  rw [this, hm]
  simp

theorem geomVertices_tiled {vs : Nat} {m : Mesh F} (h : TiledVerts vs m) {j : Nat} {g : Geom F} {a : Mat F}
    (hg : m.geoms[j]? = some g) (ha : matAt m j 0 0 = .ok a) :
    geomVertices m j = .ok ((g.mats.flatMap (vertexData vs m)).take (g.mats.map Mat.vnum).sum.toNat) := by
  obtain ⟨hs, -⟩ := firstMat_start h hg ha
  have hsplit := (getElem?_split hg).1
  have hm : m.mats = (m.geoms.take j).flatMap Geom.mats ++ (g.mats ++ (m.geoms.drop (j + 1)).flatMap Geom.mats) := by
    unfold Mesh.mats
    conv_lhs => rw [hsplit]
    simp
  have hin := h.inside
  have hA := data_length (vs := vs) (m := m) ((m.geoms.take j).flatMap Geom.mats) fun a ha =>
    hin a (by rw [hm]; simp only [List.mem_append]; exact .inl ha)
  have hB := data_length (vs := vs) (m := m) g.mats fun a ha =>
    hin a (by rw [hm]; simp only [List.mem_append]; exact .inr (.inl ha))
  rw [← hs] at hA
  have hflat := h.flat
  rw [hm, List.flatMap_append, List.flatMap_append] at hflat
  unfold geomVertices
  rw [(vertexSize_iff _ _).2 h.size, ha]
  simp only
  rw [hg]
  simp only
  rw [lods_sum, ← hflat]
  change Except.ok (pySlice _ _ (_ + (g.mats.map Mat.vnum).sum)) = _
  generalize ((m.geoms.take j).flatMap Geom.mats).flatMap (vertexData vs m) = A at hA ⊢
  generalize g.mats.flatMap (vertexData vs m) = B at hB ⊢
  have hpos := h.pos
  have hn : 0 ≤ (g.mats.map Mat.vnum).sum := by
    by_contra hh
    have : (g.mats.map Mat.vnum).sum * (vs : Int) < 0 := by
      apply mul_neg_of_neg_of_pos <;> omega
    omega
  generalize (g.mats.map Mat.vnum).sum = n at hB hn ⊢
  have hle : n ≤ B.length := by
    rw [hB]
    exact le_mul_of_one_le_right hn (by exact_mod_cast hpos)
  obtain ⟨k, rfl⟩ := Int.eq_ofNat_of_zero_le hn
  rw [← hA]
  have e : ((A.length : Int) + (k : Int)) = ((A.length + k : Nat) : Int) := by push_cast; rfl
  rw [e, pySlice_nat, List.drop_left, Nat.add_sub_cancel_left, List.take_append_of_le_length (by omega)]
  simp

theorem firstMat_istart {m : Mesh F} (h : TiledIndex m) {j : Nat} {g : Geom F} {a : Mat F}
    (hg : m.geoms[j]? = some g) (ha : matAt m j 0 0 = .ok a) :
    a.istart = (((m.geoms.take j).flatMap Geom.mats).map Mat.inum).sum := by
  obtain ⟨g1, l, e1, e2, e3⟩ := matAt_ok.1 ha
  rw [hg] at e1
  cases e1
  obtain ⟨rest, hr⟩ : ∃ rest, g.mats = a :: rest := by
    unfold Geom.mats
    rcases hl : g.lods with _ | ⟨l0, ls⟩
    · rw [hl] at e2; simp at e2
    · rw [hl] at e2
      cases e2
      rcases hm : l.materials with _ | ⟨a0, as⟩
      · rw [hm] at e3; simp at e3
      · rw [hm] at e3
        cases e3
        exact ⟨as ++ ls.flatMap Lod.materials, by simp [hm]⟩
  have hm : m.mats = (m.geoms.take j).flatMap Geom.mats ++ a :: (rest ++ (m.geoms.drop (j + 1)).flatMap Geom.mats) := by
    unfold Mesh.mats
    conv_lhs => rw [(getElem?_split hg).1]
    simp [hr]
  have := h.start ((m.geoms.take j).flatMap Geom.mats).length a (by rw [hm]; simp)
  rw [this, hm]
  simp

theorem firstMats_single {m : Mesh F} {j : Nat} {g : Geom F} (hg : m.geoms[j]? = some g)
    (h1 : ∀ l ∈ g.lods, l.materials.length = 1) : firstMats m j = .ok g.mats := by
  unfold firstMats Geom.mats
  rw [hg]
  simp only
  generalize g.lods = ls at h1
  induction ls with
  | nil => rfl
  | cons l ls ih =>
    have hl := h1 l (by simp)
    rcases hm : l.materials with _ | ⟨a, _ | ⟨b, as⟩⟩
    · rw [hm] at hl; cases hl
    · rw [mapE, hm]
      simp only [List.getElem?_cons_zero]
      rw [ih fun k hk => h1 k (by simp [hk])]
      simp [hm]
    · rw [hm] at hl; simp at hl

theorem matAt_kept {vs : Nat} {m m' : Mesh F} {i i' j k : Nat} {g g' : Geom F} {a : Mat F}
    (hk : GeomKept vs m m' g g') (hg : m.geoms[i]? = some g) (hg' : m'.geoms[i']? = some g')
    (ha : matAt m i j k = .ok a) : ∃ a', matAt m' i' j k = .ok a' ∧ MatKept vs m m' a a' := by
  obtain ⟨g1, l, e1, e2, e3⟩ := matAt_ok.1 ha
  rw [hg] at e1
  cases e1
  obtain ⟨l', e4, hl⟩ := forall₂_getElem? hk.lods e2
  obtain ⟨a', e5, hm⟩ := forall₂_getElem? hl e3
  exact ⟨a', matAt_ok.2 ⟨g', l', hg', e4, e5⟩, hm⟩

theorem orderTest_passes [DecidableEq F] {vs : Nat} {m : Mesh F} {ix : List Int} {order : List Int}
    {js : List Nat} {g0 g2 : Geom F} (tiled : TiledVerts vs m) (index : TiledIndex m)
    (many : m.index = .many ix) (bound : (m.mats.map Mat.vnum).sum ≤ 2 ^ 53)
    (perm : Permutes m.geoms.length order js) (j0 : js[0]? = some 0) (j1 : js[1]? = some 2)
    (geom0 : m.geoms[0]? = some g0) (geom2 : m.geoms[2]? = some g2)
    (lods0 : g0.lods ≠ []) (single : ∀ l ∈ g0.lods, l.materials.length = 1)
    (lods2 : 3 ≤ g2.lods.length) (mats2 : ∀ l ∈ g2.lods.take 3, l.materials ≠ []) :
    ∃ m', changeGeomsOrder m order = (m', none) ∧ orderTest m m' = .ok true := by
  obtain ⟨m', h, -, hk, hp, tv, ti, -⟩ := changeGeomsOrder_kept (tiled.inside' index) many bound perm
  refine ⟨m', h, ?_⟩
  have at2 : ∀ j < 3, ∃ a, matAt m 2 j 0 = .ok a := by
    intro j hj
    have hl : g2.lods[j]? = some g2.lods[j] := List.getElem?_eq_getElem (by omega)
    have := mats2 g2.lods[j] (List.mem_take_iff_getElem.2 ⟨j, by omega, rfl⟩)
    rcases hm : g2.lods[j].materials with _ | ⟨a, as⟩
    · exact absurd hm this
    · exact ⟨a, matAt_ok.2 ⟨g2, _, geom2, hl, by rw [hm]; rfl⟩⟩
  have at0 : ∃ a, matAt m 0 0 0 = .ok a := by
    rcases hl : g0.lods with _ | ⟨l, ls⟩
    · exact absurd hl lods0
    · have := single l (by rw [hl]; simp)
      rcases hm : l.materials with _ | ⟨a, as⟩
      · rw [hm] at this; cases this
      · exact ⟨a, matAt_ok.2 ⟨g0, l, geom0, by rw [hl]; rfl, by rw [hm]; rfl⟩⟩
  obtain ⟨h0, q0, k0⟩ := forall₂_getElem? hk (picked_getElem? perm j0 geom0)
  obtain ⟨h1, q1, k1⟩ := forall₂_getElem? hk (picked_getElem? perm j1 geom2)
  obtain ⟨a0, ha0⟩ := at0
  obtain ⟨a, ha, -⟩ := matAt_kept k0 geom0 q0 ha0
  obtain ⟨b0, hb0⟩ := at2 0 (by omega)
  obtain ⟨b, hb, -⟩ := matAt_kept k1 geom2 q1 hb0
  have single' : ∀ l ∈ h0.lods, l.materials.length = 1 := by
    intro l hl
    obtain ⟨l0, hl0, hR⟩ := forall₂_mem_right k0.lods hl
    rw [← hR.length_eq]
    exact single l0 hl0
  have hv1 := geomVertices_tiled tiled geom2 hb0
  have hv2 := geomVertices_tiled tv q1 hb
  have hvn : (h1.mats.map Mat.vnum).sum = (g2.mats.map Mat.vnum).sum := by
    have : g2.mats.map Mat.vnum = h1.mats.map Mat.vnum := by
      have := k1.mats
      clear hv1 hv2
      generalize g2.mats = xs at this
      generalize h1.mats = ys at this
      induction this with
      | nil => rfl
      | cons e _ ih => rw [List.map_cons, List.map_cons, ih, e.fields]
    rw [this]
  have hdata : h1.mats.flatMap (vertexData vs m') = g2.mats.flatMap (vertexData vs m) :=
    forall₂_flatMap_eq k1.mats fun a a' h => h.verts
  rw [hvn, hdata] at hv2
  obtain ⟨s0, -⟩ := firstMat_start tv q0 ha
  obtain ⟨s1, -⟩ := firstMat_start tv q1 hb
  have t0 := firstMat_istart ti q0 ha
  have t1 := firstMat_istart ti q1 hb
  have htake : (m'.geoms.take 1).flatMap Geom.mats = h0.mats := by
    rcases hg : m'.geoms with _ | ⟨x, xs⟩
    · rw [hg] at q0; cases q0
    · rw [hg] at q0; cases q0; simp
  rw [htake] at s1 t1
  simp only [List.take_zero, List.flatMap_nil, List.map_nil, List.sum_nil] at s0 t0
  have hloop : assertEach (assertOrderedMat m m') [0, 1, 2] = .ok true := by
    rw [assertEach_true]
    intro j hj
    obtain ⟨y, hy⟩ := at2 j (by simp at hj; omega)
    obtain ⟨x, hx, hkk⟩ := matAt_kept k1 geom2 q1 hy
    unfold assertOrderedMat
    rw [hx, hy, hkk.fields]
    simp
  have hlen : m'.vertices.length = m.vertices.length := by
    have e1 := tv.total
    have e2 := tiled.total
    rw [hp.1, ← e2] at e1
    exact_mod_cast e1
  unfold orderTest
  rw [hv1, hb, ha, firstMats_single q0 single']
  simp only
  rw [hloop]
  simp only [thenAssert_true, decide_eq_true_eq]
  refine ⟨by rw [s1, s0, Int.zero_add], by rw [t1, t0, Int.zero_add], hlen, ?_⟩
  rw [hv2]
  simp

end Bf2
