import Verif.HistorySpec
import Verif.BoundsLemmas
import Verif.RotateLemmas
import Verif.MergeLemmas
import Verif.FormatLemmas

/-! # Lemmas about edit histories -/

namespace Bf2

variable {F : Type}

/-! ## Well-formed geoms -/

/-- Well-formedness of a geom depends on its shape and, one by one, on its materials. -/
theorem geomWF_of_shape {k : Kind} {v : Int} {g g' : Geom F} (h : GeomWF k v g)
    (hs : g'.shape = g.shape) (hm : ∀ a ∈ g'.mats, MatWF k v a) : GeomWF k v g' := by
  rw [geom_shape, geom_shape, Prod.mk.injEq] at hs
  have hl : ∀ l' ∈ g'.lods, ∃ l ∈ g.lods, Lod.shape l' = Lod.shape l := by
    intro l' hl'
    have : Lod.shape l' ∈ g.lods.map Lod.shape := by
      rw [← hs.2]; exact List.mem_map_of_mem hl'
    obtain ⟨l, h1, h2⟩ := List.mem_map.1 this
    exact ⟨l, h1, h2.symm⟩
  refine ⟨?_, ?_, ?_⟩
  · have := congrArg List.length hs.2
    simp only [List.length_map] at this
    rw [this, h.lods, hs.1]
  · intro l' hl'
    obtain ⟨l, h1, h2⟩ := hl l' hl'
    have hw := h.nodes l h1
    simp only [Lod.shape, Prod.mk.injEq] at h2
    have h3 := h2.1
    cases l; cases l'
    simp only [Lod.mk.injEq] at h3
    obtain ⟨rfl, rfl, rfl, rfl, rfl, rfl, rfl, rfl, -⟩ := h3
    exact ⟨hw.pivot, hw.rigs, hw.bones, hw.no_rigs, hw.nodes, hw.no_nodes⟩
  · intro l' hl'
    obtain ⟨l, h1, h2⟩ := hl l' hl'
    have hw := h.mats l h1
    simp only [Lod.shape, Prod.mk.injEq] at h2
    refine ⟨?_, fun a ha => hm a (List.mem_flatMap.2 ⟨l', hl', ha⟩)⟩
    rw [h2.2, hw.materials]
    have h3 := congrArg Lod.matnum h2.1
    simp only at h3
    rw [h3]

theorem geoms_matWF {k : Kind} {v : Int} {gs : List (Geom F)} (h : ∀ g ∈ gs, GeomWF k v g) :
    ∀ a ∈ gs.flatMap Geom.mats, MatWF k v a := by
  intro a ha
  obtain ⟨g, hg, ha⟩ := List.mem_flatMap.1 ha
  obtain ⟨l, hl, ha⟩ := List.mem_flatMap.1 ha
  exact ((h g hg).mats l hl).each a ha

theorem geoms_wf_of_shape {k : Kind} {v : Int} {gs gs' : List (Geom F)}
    (h : ∀ g ∈ gs, GeomWF k v g) (hs : ∀ g' ∈ gs', ∃ g ∈ gs, g'.shape = g.shape)
    (hm : ∀ a ∈ gs'.flatMap Geom.mats, MatWF k v a) : ∀ g ∈ gs', GeomWF k v g := by
  intro g' hg'
  obtain ⟨g, hg, he⟩ := hs g' hg'
  exact geomWF_of_shape (h g hg) he fun a ha => hm a (List.mem_flatMap.2 ⟨g', hg', ha⟩)

/-! ## Replaced vertices -/

theorem Orderly.set_vertices {vs : Nat} {m : Mesh F} (h : Orderly vs m) {l : List F}
    (hl : l.length = m.vertices.length) : Orderly vs { m with vertices := l } where
  wf := ⟨h.wf.geoms, h.wf.geom, h.wf.vattrs, h.wf.vertformat,
    by have := h.wf.vertices; rw [← hl] at this; exact this,
    by have := h.wf.not_one; rw [← hl] at this; exact this, h.wf.index, h.wf.u2⟩
  verts := ⟨h.verts.pos, h.verts.size, h.verts.nonneg, h.verts.start,
    by have := h.verts.total; rw [← hl] at this; exact this⟩
  index := ⟨h.index.nonneg, h.index.start, h.index.total⟩
  many := h.many
  stride := h.stride
  count := by have := h.count; rw [← hl] at this; exact this
  size := by have := h.size; rw [← hl] at this; exact this
  vectors := h.vectors
  fit := h.fit

theorem Orderly.inside {vs : Nat} {m : Mesh F} (h : Orderly vs m) : Inside vs m :=
  ⟨h.verts.pos, h.verts.size, h.verts.inside, h.index.inside⟩

/-! ## translate -/

section
variable [FArith F]

theorem addAll_length (o : Int) (d : List F) (k : Nat) (v w : List F)
    (h : addAll o k d v = .ok w) : w.length = v.length := by
  induction d generalizing k v with
  | nil => cases h; rfl
  | cons x d ih =>
    unfold addAll at h
    split at h
    · cases h
    · rename_i v' hv'
      rw [ih _ _ h]
      unfold addAt at hv'
      split at hv'
      · cases hv'
      · cases hv'
        simp

theorem translateVertex_length {m : Mesh F} {d v w : List F}
    (h : translateVertex m d v = .ok w) : w.length = v.length := by
  unfold translateVertex at h
  split at h
  · cases h
  · split at h
    · cases h; rfl
    · cases h
  · exact addAll_length _ _ _ _ _ h

/-- Whatever `translate` does to a tiled mesh, it replaces the vertices by as many. -/
theorem translate_any {vs : Nat} {m : Mesh F} (ht : TiledVerts vs m) (d : List F) :
    ∃ l, (translate m d).1 = { m with vertices := l } ∧ l.length = m.vertices.length := by
  unfold translate
  rcases he : editVertices (translateVertex m d) m with e | l
  · exact ⟨m.vertices, rfl, rfl⟩
  · refine ⟨l, rfl, ?_⟩
    rw [editVertices_tiled ht] at he
    obtain ⟨n, hn, -⟩ := ht.count
    rw [hn]
    exact (flatMapE_chunks_length ht.pos _ vs n _ _ hn he).2 fun v w hv hw => by
      rw [translateVertex_length hw, hv]

/-! ## update_boundaries -/

theorem trav_forall₂ {σ α : Type} {f : σ → α → σ × α × Option Err} {R : α → α → Prop}
    (hf : ∀ s a, R a (f s a).2.1) (hr : ∀ a, R a a) (s : σ) (l : List α) :
    List.Forall₂ R l (trav f s l).2.1 := by
  induction l generalizing s with
  | nil => exact .nil
  | cons a l ih =>
    rw [trav]
    have h1 := hf s a
    rcases hfa : f s a with ⟨s', a', _ | e⟩
    · rw [hfa] at h1
      exact .cons h1 (ih s')
    · rw [hfa] at h1
      exact .cons h1 (List.forall₂_same.2 fun a _ => hr a)

/-- A material whose bounds may have been set. -/
structure MatBounded (m : Mesh F) (a a' : Mat F) : Prop where
  fields : a' = { a with mmin := a'.mmin, mmax := a'.mmax }
  bounds : (a'.mmin = a.mmin ∧ a'.mmax = a.mmax) ∨
    (m.bounded = true ∧ a'.mmin.isSome = true ∧ a'.mmax.isSome = true)

structure LodBounded (m : Mesh F) (l l' : Lod F) : Prop where
  fields : l' = { l with min := l'.min, max := l'.max, materials := l'.materials }
  mats : List.Forall₂ (MatBounded m) l.materials l'.materials

structure GeomBounded (m : Mesh F) (g g' : Geom F) : Prop where
  fields : g' = { g with lods := g'.lods }
  lods : List.Forall₂ (LodBounded m) g.lods g'.lods

omit [FArith F] in
theorem MatBounded.refl (m : Mesh F) (a : Mat F) : MatBounded m a a := ⟨rfl, Or.inl ⟨rfl, rfl⟩⟩
omit [FArith F] in
theorem LodBounded.refl (m : Mesh F) (l : Lod F) : LodBounded m l l :=
  ⟨rfl, List.forall₂_same.2 fun a _ => .refl m a⟩
omit [FArith F] in
theorem GeomBounded.refl (m : Mesh F) (g : Geom F) : GeomBounded m g g :=
  ⟨rfl, List.forall₂_same.2 fun a _ => .refl m a⟩

theorem boundMat_bounded (m : Mesh F) (b : Box F) (a : Mat F) :
    MatBounded m a (boundMat m b a).2.1 := by
  unfold boundMat
  split
  · exact .refl m a
  · split
    · rename_i h
      exact ⟨rfl, Or.inr ⟨h, rfl, rfl⟩⟩
    · exact .refl m a

theorem boundLod_bounded (m : Mesh F) (u : Unit) (l : Lod F) :
    LodBounded m l (boundLod m u l).2.1 := by
  have h := trav_forall₂ (boundMat_bounded m) (.refl m) Box.zero l.materials
  unfold boundLod
  rcases ht : trav (boundMat m) Box.zero l.materials with ⟨b, ms, _ | e⟩ <;> rw [ht] at h <;>
    exact ⟨rfl, h⟩

theorem boundGeom_bounded (m : Mesh F) (u : Unit) (g : Geom F) :
    GeomBounded m g (boundGeom m u g).2.1 :=
  ⟨rfl, trav_forall₂ (boundLod_bounded m) (.refl m) () g.lods⟩

theorem update_bounded (m : Mesh F) : ∃ gs, (updateBoundaries m).1 = { m with geoms := gs } ∧
    List.Forall₂ (GeomBounded m) m.geoms gs :=
  ⟨_, rfl, trav_forall₂ (boundGeom_bounded m) (.refl m) () m.geoms⟩

omit [FArith F] in
theorem MatBounded.wf {m : Mesh F} {a a' : Mat F} (h : MatBounded m a a')
    (hw : MatWF m.kind m.head.version a) : MatWF m.kind m.head.version a' := by
  obtain ⟨h1, h2⟩ := h
  refine ⟨by rw [h1]; exact hw.alphamode, by rw [h1]; exact hw.maps, ?_, ?_⟩ <;>
    rcases h2 with ⟨h2, h3⟩ | ⟨h2, h3, h4⟩
  · rw [h2]; exact hw.mmin
  · rw [h3]; exact h2.symm
  · rw [h3]; exact hw.mmax
  · rw [h4]; exact h2.symm

theorem forall₂_mem_right {α β : Type} {R : α → β → Prop} {l : List α} {r : List β}
    (h : List.Forall₂ R l r) {b : β} (hb : b ∈ r) : ∃ a ∈ l, R a b := by
  induction h with
  | nil => simp at hb
  | cons h1 _ ih =>
    rcases List.mem_cons.1 hb with rfl | hb
    · exact ⟨_, by simp, h1⟩
    · obtain ⟨a, ha, hR⟩ := ih hb
      exact ⟨a, by simp [ha], hR⟩

omit [FArith F] in
theorem GeomBounded.wf {m : Mesh F} {g g' : Geom F} (h : GeomBounded m g g')
    (hw : GeomWF m.kind m.head.version g) : GeomWF m.kind m.head.version g' := by
  have hlen := h.lods.length_eq
  refine ⟨?_, ?_, ?_⟩
  · rw [← hlen, hw.lods, h.fields]
  · intro l' hl'
    obtain ⟨l, hl, hR⟩ := forall₂_mem_right h.lods hl'
    have := hw.nodes l hl
    rw [hR.fields]
    exact ⟨this.pivot, this.rigs, this.bones, this.no_rigs, this.nodes, this.no_nodes⟩
  · intro l' hl'
    obtain ⟨l, hl, hR⟩ := forall₂_mem_right h.lods hl'
    have hm := hw.mats l hl
    refine ⟨?_, ?_⟩
    · rw [← hR.mats.length_eq, hm.materials, hR.fields]
    · intro a' ha'
      obtain ⟨a, ha, hA⟩ := forall₂_mem_right hR.mats ha'
      exact hA.wf (hm.each a ha)

/-- What the tiling of the arrays depends on. -/
def Mat.ranges (a : Mat F) : Int × Int × Int × Int := (a.vstart, a.vnum, a.istart, a.inum)

omit [FArith F] in
theorem tiledVerts_congr {vs : Nat} {m m' : Mesh F} (h : TiledVerts vs m)
    (hr : m'.mats.map Mat.ranges = m.mats.map Mat.ranges) (hv : m'.vertices = m.vertices)
    (ha : m'.vattrs = m.vattrs) : TiledVerts vs m' := by
  have hn : m'.mats.map Mat.vnum = m.mats.map Mat.vnum := by
    have := congrArg (List.map fun r => r.2.1) hr
    simpa [Mat.ranges, Function.comp_def] using this
  refine ⟨h.pos, by rw [ha]; exact h.size, ?_, ?_, by rw [hv, hn]; exact h.total⟩
  · intro a ha
    have : a.vnum ∈ m.mats.map Mat.vnum := by rw [← hn]; exact List.mem_map_of_mem ha
    obtain ⟨b, hb, he⟩ := List.mem_map.1 this
    rw [← he]
    exact h.nonneg b hb
  · intro i a hi
    have : (m.mats.map Mat.ranges)[i]? = some a.ranges := by rw [← hr]; simp [hi]
    rw [List.getElem?_map, Option.map_eq_some_iff] at this
    obtain ⟨b, hb, he⟩ := this
    have h1 := h.start i b hb
    simp only [Mat.ranges, Prod.mk.injEq] at he
    rw [← he.1, h1, List.map_take, List.map_take, hn]

omit [FArith F] in
theorem tiledIndex_congr {m m' : Mesh F} (h : TiledIndex m)
    (hr : m'.mats.map Mat.ranges = m.mats.map Mat.ranges) (hv : m'.index = m.index) :
    TiledIndex m' := by
  have hn : m'.mats.map Mat.inum = m.mats.map Mat.inum := by
    have := congrArg (List.map fun r => r.2.2.2) hr
    simpa [Mat.ranges, Function.comp_def] using this
  refine ⟨?_, ?_, by rw [hv, hn]; exact h.total⟩
  · intro a ha
    have : a.inum ∈ m.mats.map Mat.inum := by rw [← hn]; exact List.mem_map_of_mem ha
    obtain ⟨b, hb, he⟩ := List.mem_map.1 this
    rw [← he]
    exact h.nonneg b hb
  · intro i a hi
    have : (m.mats.map Mat.ranges)[i]? = some a.ranges := by rw [← hr]; simp [hi]
    rw [List.getElem?_map, Option.map_eq_some_iff] at this
    obtain ⟨b, hb, he⟩ := this
    have h1 := h.start i b hb
    simp only [Mat.ranges, Prod.mk.injEq] at he
    rw [← he.2.2.1, h1, List.map_take, List.map_take, hn]

theorem flatMap_map_eq {α β γ : Type} {R : α → α → Prop} {f : α → List β} {r : β → γ}
    (h : ∀ a a', R a a' → (f a').map r = (f a).map r) {l l' : List α} (hl : List.Forall₂ R l l') :
    (l'.flatMap f).map r = (l.flatMap f).map r := by
  induction hl with
  | nil => rfl
  | cons h1 _ ih => rw [List.flatMap_cons, List.flatMap_cons, List.map_append, List.map_append,
      h _ _ h1, ih]

theorem Orderly.update {vs : Nat} {m : Mesh F} (h : Orderly vs m) :
    Orderly vs (updateBoundaries m).1 := by
  obtain ⟨gs, he, hgs⟩ := update_bounded m
  have hr : (({ m with geoms := gs } : Mesh F).mats).map Mat.ranges = m.mats.map Mat.ranges := by
    refine flatMap_map_eq (fun g g' hg => flatMap_map_eq (fun l l' hl => ?_) hg.lods) hgs
    have := hl.mats
    generalize l.materials = as at this
    generalize l'.materials = bs at this
    induction this with
    | nil => rfl
    | cons h1 _ ih =>
      rw [List.map_cons, List.map_cons, ih, h1.fields]
      rfl
  rw [he]
  refine ⟨⟨?_, ?_, h.wf.vattrs, h.wf.vertformat, h.wf.vertices, h.wf.not_one, h.wf.index, h.wf.u2⟩,
    tiledVerts_congr h.verts hr rfl rfl, tiledIndex_congr h.index hr rfl, h.many, h.stride, h.count,
    h.size, h.vectors, h.fit⟩
  · rw [← h.wf.geoms]
    exact hgs.length_eq.symm
  · intro g' hg'
    obtain ⟨g, hg, hR⟩ := forall₂_mem_right hgs hg'
    exact hR.wf (h.wf.geom g hg)

end

/-! ## change_geoms_order -/

/-- A mesh that differs from an orderly one in geoms, arrays and counts only. -/
theorem Orderly.rebuild {vs : Nat} {m m' : Mesh F} (h : Orderly vs m)
    (rest : m' = { m with
      geoms := m'.geoms, vertices := m'.vertices, index := m'.index, vertnum := m'.vertnum,
      indexnum := m'.indexnum })
    (hg : m'.geoms.length = m.geoms.length) (hw : ∀ g ∈ m'.geoms, GeomWF m.kind m.head.version g)
    (hv : TiledVerts vs m') (hi : TiledIndex m') {l : List Int} (hl : m'.index = .many l)
    (hc : (m'.vertices.length : Int) = vs * m'.vertnum) (hs : m'.vertices.length ≤ 2 ^ 53)
    (h1 : m'.vertices.length ≠ 1) (hn : (l.length : Int) = m'.indexnum) (hn1 : l.length ≠ 1)
    (hf : ∀ v ∈ l, IsShort v) : Orderly vs m' := by
  have kind : m'.kind = m.kind := by rw [rest]
  have head : m'.head = m.head := by rw [rest]
  have geomnum : m'.geomnum = m.geomnum := by rw [rest]
  have van : m'.vertattribnum = m.vertattribnum := by rw [rest]
  have vattrs : m'.vattrs = m.vattrs := by rw [rest]
  have vf : m'.vertformat = m.vertformat := by rw [rest]
  have vst : m'.vertstride = m.vertstride := by rw [rest]
  have u2 : m'.u2 = m.u2 := by rw [rest]
  have stride : m'.vertstride = m'.vertformat * vs := by rw [vst, vf]; exact h.stride
  have vf0 : m'.vertformat ≠ 0 := by rw [vf]; exact h.wf.vertformat
  refine ⟨⟨?_, ?_, ?_, vf0, ?_, h1, ?_, ?_⟩, hv, hi, ⟨l, hl⟩, stride, hc, hs, ?_, ?_⟩
  · rw [hg, h.wf.geoms, geomnum]
  · rw [kind, head]; exact hw
  · rw [vattrs, van]; exact h.wf.vattrs
  · rw [Mesh.announced, intDivMul_exact vf0 stride, hc]
    rw [← hc]
    have : ((m'.vertices.length : Int)) ≤ 2 ^ 53 := by exact_mod_cast hs
    rw [abs_of_nonneg (by omega)]
    exact this
  · rw [hl]
    exact ⟨by omega, by omega, by omega⟩
  · rw [kind, u2]; exact h.wf.u2
  · intro a ha hva
    rw [vf]
    rw [vattrs] at ha
    exact h.vectors a ha hva
  · rw [hl]; exact hf

theorem Orderly.reorder {vs : Nat} {m : Mesh F} (h : Orderly vs m) {order : List Int}
    {js : List Nat} (hp : Permutes m.geoms.length order js) :
    Orderly vs (changeGeomsOrder m order).1 := by
  obtain ⟨ix, hix⟩ := h.many
  obtain ⟨m', he, hrest, hk, ⟨hvn, hin⟩, hv, hi, -, hvv, hii⟩ :=
    changeGeomsOrder_kept h.inside hix (h.verts.sum_le h.size) hp
  rw [he]
  have hpick := permutes_picked hp
  have hlv : m'.vertices.length = m.vertices.length := by
    have h1 := hv.total
    have h2 := h.verts.total
    rw [hvn, ← h2] at h1
    exact_mod_cast h1
  have hli : (m'.index.elems.length : Int) = m.index.elems.length := by
    rw [hi.total, hin, ← h.index.total]
  have hvnum : m'.vertnum = m.vertnum := by rw [hrest]
  have hinum : m'.indexnum = m.indexnum := by rw [hrest]
  have hwi := h.wf.index
  rw [hix] at hwi hli
  rw [hii] at hli
  obtain ⟨w1, w2, w3⟩ := hwi
  refine h.rebuild ?_ ?_ ?_ hv hi hii ?_ ?_ ?_ ?_ ?_ ?_
  · conv_lhs => rw [hrest]
    rw [hvnum, hinum]
  · rw [← hk.length_eq]; exact hpick.length_eq
  · refine geoms_wf_of_shape h.wf.geom ?_ ?_
    · intro g' hg'
      obtain ⟨g, hg, hR⟩ := forall₂_mem_right hk hg'
      exact ⟨g, hpick.mem_iff.1 hg, hR.shape⟩
    · intro a' ha'
      obtain ⟨g', hg', ha'⟩ := List.mem_flatMap.1 ha'
      obtain ⟨g, hg, hR⟩ := forall₂_mem_right hk hg'
      obtain ⟨a, ha, hA⟩ := forall₂_mem_right hR.mats ha'
      have hw := geoms_matWF h.wf.geom a (List.mem_flatMap.2 ⟨g, hpick.mem_iff.1 hg, ha⟩)
      rw [hA.fields]
      exact ⟨hw.alphamode, hw.maps, hw.mmin, hw.mmax⟩
  · rw [hlv, hvnum]; exact h.count
  · rw [hlv]; exact h.size
  · rw [hlv]; exact h.wf.not_one
  · simp only [OneOrMany.elems] at hli
    rw [hinum]; omega
  · simp only [OneOrMany.elems] at hli
    omega
  · intro v hv
    obtain ⟨a, -, hv⟩ := List.mem_flatMap.1 hv
    exact h.fit v (block_mem hv)

/-! ## merge -/

theorem Orderly.merge {vs : Nat} {m o m' : Mesh F} (h : Orderly vs m) (ho : Orderly vs o)
    (he : merge m o = (m', .ok .done)) (hs : m'.vertices.length ≤ 2 ^ 53) : Orderly vs m' := by
  obtain ⟨ix, hix⟩ := h.many
  obtain ⟨ox, hox⟩ := ho.many
  obtain ⟨hc, hno, hm⟩ := merge_done h.inside ho.inside hix hox he
  obtain ⟨hv, hi⟩ := hm.tiled h.inside ho.inside
  have hsum : ∀ f : Mat F → Int, (∀ a b : Mat F, f (addCounts a b) = f a + f b) →
      ((List.zipWith addCounts m.mats o.mats).map f).sum = (m.mats.map f).sum + (o.mats.map f).sum := by
    intro f hf
    have hlen := hc.mats_length
    generalize m.mats = as at hlen ⊢
    generalize o.mats = bs at hlen ⊢
    induction as generalizing bs with
    | nil => cases bs with
      | nil => rfl
      | cons b bs => simp at hlen
    | cons a as ih => cases bs with
      | nil => simp at hlen
      | cons b bs =>
        simp only [List.zipWith_cons_cons, List.map_cons, List.sum_cons, hf]
        rw [ih bs (by simpa using hlen)]
        omega
  have hvs := hsum Mat.vnum fun _ _ => rfl
  have his := hsum Mat.inum fun _ _ => rfl
  have htv : (m'.vertices.length : Int) = m.vertices.length + o.vertices.length := by
    rw [hv.total, hm.mats, retile_vnum, hvs, h.verts.total, ho.verts.total, Int.add_mul]
  have hti : (m'.index.elems.length : Int) = m.index.elems.length + o.index.elems.length := by
    rw [hi.total, hm.mats, retile_inum, his, h.index.total, ho.index.total]
  have hwi := h.wf.index
  have howi := ho.wf.index
  have h1 := h.wf.not_one
  have ho1 := ho.wf.not_one
  rw [hix] at hwi hti
  rw [hox] at howi hti
  rw [hm.index] at hti
  simp only [OneOrMany.elems] at hti
  obtain ⟨w1, w2, w3⟩ := hwi
  obtain ⟨o1, o2, o3⟩ := howi
  refine h.rebuild hm.rest ?_ ?_ hv hi hm.index ?_ hs ?_ ?_ ?_ ?_
  · have := congrArg List.length hm.shape
    simpa using this
  · refine geoms_wf_of_shape h.wf.geom ?_ ?_
    · intro g' hg'
      have : g'.shape ∈ m.geoms.map Geom.shape := by rw [← hm.shape]; exact List.mem_map_of_mem hg'
      obtain ⟨g, hg, he⟩ := List.mem_map.1 this
      exact ⟨g, hg, he.symm⟩
    · intro a' ha'
      obtain ⟨i, hi'⟩ := List.mem_iff_getElem?.1 ha'
      have hlt : i < m.mats.length := by
        have := (List.getElem?_eq_some_iff.1 hi').1
        have hl := hm.length hc
        change i < m'.mats.length at this
        omega
      obtain ⟨a, ha⟩ := getElem?_lt rfl hlt
      obtain ⟨b, hb⟩ := getElem?_lt (l := o.mats) hc.mats_length.symm hlt
      obtain ⟨a'', h2, h3⟩ := hm.mat h.inside ho.inside ha hb
      change m'.mats[i]? = some a' at hi'
      rw [hi'] at h2
      obtain rfl : a' = a'' := by injection h2
      have hw := geoms_matWF h.wf.geom a (List.mem_of_getElem? ha)
      rw [h3.fields]
      exact ⟨hw.alphamode, hw.maps, hw.mmin, hw.mmax⟩
  · rw [hv.total, hm.vertnum, hm.mats, retile_vnum, Int.mul_comm]
  · omega
  · rw [hm.indexnum, his]
    have e1 := h.index.total
    have e2 := ho.index.total
    rw [hix] at e1
    rw [hox] at e2
    simp only [OneOrMany.elems] at e1 e2
    omega
  · omega
  · have := merge_fits h.inside ho.inside hix hox he h.fit fun v hv => (ho.fit v hv).1
    rw [hm.index] at this
    exact this

/-! ## Steps -/

theorem SameFormat.refl (m : Mesh F) : SameFormat m m :=
  ⟨rfl, rfl, rfl, rfl, rfl, rfl, rfl, rfl, rfl⟩

theorem SameFormat.trans {m m' m'' : Mesh F} (h : SameFormat m m') (h' : SameFormat m' m'') :
    SameFormat m m'' :=
  ⟨h'.kind.trans h.kind, h'.head.trans h.head, h'.geomnum.trans h.geomnum,
    h'.vertattribnum.trans h.vertattribnum, h'.vattrs.trans h.vattrs,
    h'.vertformat.trans h.vertformat, h'.vertstride.trans h.vertstride, h'.u1.trans h.u1,
    h'.u2.trans h.u2⟩

theorem update_format [FArith F] (m : Mesh F) : SameFormat m (updateBoundaries m).1 := by
  obtain ⟨gs, he, -⟩ := update_bounded m
  rw [he]
  exact ⟨rfl, rfl, rfl, rfl, rfl, rfl, rfl, rfl, rfl⟩

theorem center_mesh [FArith F] (m : Mesh F) (g l : Int) (b : Bool) :
    (getLodCenterOffset m g l b).1 = m ∨
    (getLodCenterOffset m g l b).1 = (updateBoundaries m).1 := by
  unfold getLodCenterOffset
  rcases lodPos m g l with _ | p
  · exact .inl rfl
  · cases b with
    | false =>
      left
      simp only [Bool.false_eq_true, if_false]
      split <;> rfl
    | true =>
      right
      simp only [if_true]
      rcases updateBoundaries m with ⟨m', _ | e⟩
      · simp only
        split <;> rfl
      · rfl

theorem reorder_format (m : Mesh F) (order : List Int) :
    SameFormat m (changeGeomsOrder m order).1 := by
  unfold changeGeomsOrder
  repeat' split
  all_goals exact ⟨rfl, rfl, rfl, rfl, rfl, rfl, rfl, rfl, rfl⟩

theorem vertexSize_unique {attrs : List VAttr} {n k : Nat} (h : VertexSize attrs n)
    (h' : VertexSize attrs k) : n = k := by
  obtain ⟨l, h1, rfl⟩ := h
  obtain ⟨l', h2, rfl⟩ := h'
  rw [h1] at h2
  rw [List.map_injective_iff.2 (Option.some_injective _) h2]

theorem Orderly.merge_any {vs vs' : Nat} {m o m' : Mesh F} {r : MergeRet} (h : Orderly vs m)
    (ho : Orderly vs' o) (he : Bf2.merge m o = (m', .ok r)) (hs : m'.vertices.length ≤ 2 ^ 53) :
    Orderly vs m' ∧ SameFormat m m' := by
  rcases hc : canMerge m o with e | b
  · unfold Bf2.merge at he
    rw [hc] at he
    simp at he
  cases b with
  | false =>
    unfold Bf2.merge at he
    rw [hc] at he
    obtain ⟨rfl, -⟩ := Prod.mk.inj he
    exact ⟨h, .refl m⟩
  | true =>
    have hcc := (canMerge_true m o).1 hc
    have hsz := ho.verts.size
    rw [← hcc.vattrs] at hsz
    obtain rfl := vertexSize_unique h.verts.size hsz
    have hr : r = .done := by
      unfold Bf2.merge at he
      rw [hc] at he
      simp only at he
      split at he
      · simp at he
      · unfold mergeFinish at he
        split at he
        · simp at he
        · injection he with h1 h2
          injection h2 with h2
          exact h2.symm
    subst hr
    obtain ⟨ix, hix⟩ := h.many
    obtain ⟨ox, hox⟩ := ho.many
    have hm := (merge_done h.inside ho.inside hix hox he).2.2
    refine ⟨h.merge ho he hs, ?_⟩
    rw [hm.rest]
    exact ⟨rfl, rfl, rfl, rfl, rfl, rfl, rfl, rfl, rfl⟩

theorem Orderly.map {vs : Nat} {m : Mesh F} (h : Orderly vs m) (f : F → F) :
    Orderly vs (m.map f) := by
  have hr : (m.map f).mats.map Mat.ranges = m.mats.map Mat.ranges := by
    simp only [Mesh.mats, Mesh.map, Geom.mats, Geom.map, Lod.map, List.flatMap_map, List.map_flatMap,
      List.map_map]
    rfl
  have hlen : (m.map f).vertices.length = m.vertices.length := by simp [Mesh.map]
  have hv := tiledVerts_congr (m' := { m.map f with vertices := m.vertices }) h.verts hr rfl rfl
  refine ⟨h.wf.map f, ⟨hv.pos, hv.size, hv.nonneg, hv.start, ?_⟩, tiledIndex_congr h.index hr rfl,
    h.many, h.stride, ?_, ?_, h.vectors, h.fit⟩
  · rw [hlen]; exact hv.total
  · rw [hlen]; exact h.count
  · rw [hlen]; exact h.size

end Bf2
