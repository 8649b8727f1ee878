import Verif.Readme
import Verif.RoundLemmas
import Verif.HistoryLemmas
import Verif.EqualLemmas
import Verif.Props.Bounds
import Verif.Props.Format
import Verif.Props.Object

/-!
# Lemmas on the programs of the README
-/

namespace Bf2

/-! ## Bounds do not matter for the range of integers -/

theorem inRange_erase {pl : Plat} {m : Mesh F} (z : Vec3 F) :
    InRange pl (m.eraseBounds z) ↔ InRange pl m := by
  constructor
  · intro h
    refine ⟨h.head_u1, h.version, h.head_u3, h.head_u4, h.head_u5, h.u1, h.geomnum, ?_,
      h.vertattribnum, h.vattrs, h.vertformat, h.vertstride, h.vertnum, h.indexnum, h.index, h.u2, ?_⟩
    · intro g hg
      exact h.lodnum { g with lods := g.lods.map (Lod.eraseBounds z) } (List.mem_map.2 ⟨g, hg, rfl⟩)
    · intro g hg l hl
      have := h.lods _ (List.mem_map.2 ⟨g, hg, rfl⟩) _ (List.mem_map.2 ⟨l, hl, rfl⟩)
      refine ⟨this.rignum, this.bonenum, this.boneid, this.nodenum, this.matnum, fun a ha => ?_⟩
      have := this.mats _ (List.mem_map.2 ⟨a, ha, rfl⟩)
      exact ⟨this.1, this.2, this.3, this.4, this.5, this.6, this.7, this.8, this.9, this.10, this.11⟩
  · intro h
    refine ⟨h.head_u1, h.version, h.head_u3, h.head_u4, h.head_u5, h.u1, h.geomnum, ?_,
      h.vertattribnum, h.vattrs, h.vertformat, h.vertstride, h.vertnum, h.indexnum, h.index, h.u2, ?_⟩
    · intro g' hg'
      obtain ⟨g, hg, rfl⟩ := List.mem_map.1 hg'
      exact h.lodnum g hg
    · intro g' hg' l' hl'
      obtain ⟨g, hg, rfl⟩ := List.mem_map.1 hg'
      obtain ⟨l, hl, rfl⟩ := List.mem_map.1 hl'
      have := h.lods g hg l hl
      refine ⟨this.rignum, this.bonenum, this.boneid, this.nodenum, this.matnum, fun a' ha' => ?_⟩
      obtain ⟨a, ha, rfl⟩ := List.mem_map.1 ha'
      have := this.mats a ha
      exact ⟨this.1, this.2, this.3, this.4, this.5, this.6, this.7, this.8, this.9, this.10, this.11⟩

theorem update_inRange [FArith F] {pl : Plat} {m : Mesh F} (h : InRange pl m) :
    InRange pl (updateBoundaries m).1 := by
  have z : Vec3 F := ⟨FArith.zero, FArith.zero, FArith.zero⟩
  rw [← inRange_erase z, update_erase, inRange_erase]
  exact h

/-! ## Bounds and maps -/

theorem erase_map (f : F → F) (z z' : Vec3 F) (m : Mesh F) :
    (m.map f).eraseBounds z = ((m.eraseBounds z').map f).eraseBounds z := by
  simp only [Mesh.eraseBounds, Mesh.map, List.map_map, Mesh.mk.injEq, and_true, true_and]
  refine List.map_congr_left fun g _ => ?_
  simp only [Function.comp, Geom.map, List.map_map, Geom.mk.injEq, true_and]
  refine List.map_congr_left fun l _ => ?_
  simp only [Function.comp, Lod.map, Lod.eraseBounds, List.map_map, Lod.mk.injEq, true_and]
  exact List.map_congr_left fun a _ => rfl

theorem update_map_erase [FArith F] (f : F → F) (z : Vec3 F) (m : Mesh F) :
    ((updateBoundaries m).1.map f).eraseBounds z = (m.map f).eraseBounds z := by
  rw [erase_map f z z, update_erase, ← erase_map]

theorem vec3At_map (f : F → F) (l : List F) (o : Nat) :
    vec3At (l.map f) o = (vec3At l o).map (Vec3.map f) := by
  unfold vec3At
  simp only [List.getElem?_map]
  rcases l[o]? with _ | x <;> rcases l[o + 1]? with _ | y <;> rcases l[o + 2]? with _ | w <;> rfl

theorem posOf_map {f : F → F} {vs o : Nat} {m : Mesh F} {a : Mat F} {x : Vec3 F}
    (h : PosOf vs o (m.map f) (a.map f) x) : ∃ y, PosOf vs o m a y ∧ x = y.map f := by
  obtain ⟨v, hv, hx⟩ := h
  have : vec3At (m.vertices.map f) ((a.vstart.toNat + v) * vs + o) = some x := hx
  rw [vec3At_map, Option.map_eq_some_iff] at this
  obtain ⟨y, hy, rfl⟩ := this
  exact ⟨y, ⟨v, hv, hy⟩, rfl⟩

theorem comp_map (f : F → F) (x : Vec3 F) (c : Fin 3) : (x.map f).comp c = f (x.comp c) := by
  match c with
  | 0 => rfl
  | 1 => rfl
  | 2 => rfl

/-- Bounds that contain the positions still do after rounding both to binary32. -/
theorem covers_rnd32 {mn mx : Vec3 F64} {P Q : Vec3 F64 → Prop} (h : Covers mn mx P)
    (hq : ∀ x, Q x → ∃ y, P y ∧ x = y.map rnd32) : Covers (mn.map rnd32) (mx.map rnd32) Q := by
  intro x hx c
  obtain ⟨y, hy, rfl⟩ := hq x hx
  obtain ⟨h1, h2⟩ := h y hy c
  rw [comp_map, comp_map, comp_map]
  constructor
  · rw [Bool.eq_false_iff]
    intro h'
    cases h1.symm.trans (rnd32_lt h')
  · rw [Bool.eq_false_iff]
    intro h'
    cases h2.symm.trans (rnd32_lt h')

theorem boundsAre_rnd32 {vs o : Nat} {m : Mesh F64} (h : BoundsAre Covers vs o m m) :
    BoundsAre Covers vs o (m.map rnd32) (m.map rnd32) := by
  unfold BoundsAre at h ⊢
  simp only [Mesh.map, List.forall₂_map_left_iff, List.forall₂_map_right_iff]
  refine h.imp fun g g' hg => ?_
  simp only [Geom.map, List.forall₂_map_left_iff, List.forall₂_map_right_iff]
  refine hg.imp fun l l' hl => ⟨covers_rnd32 hl.1 ?_, ?_⟩
  · rintro x ⟨a', ha', hx⟩
    obtain ⟨a, ha, rfl⟩ := List.mem_map.1 ha'
    obtain ⟨y, hy, rfl⟩ := posOf_map hx
    exact ⟨y, ⟨a, ha, hy⟩, rfl⟩
  · simp only [Lod.map, List.forall₂_map_left_iff, List.forall₂_map_right_iff]
    refine hl.2.imp fun a a' ⟨mn, mx, h1, h2, h3⟩ => ?_
    exact ⟨mn.map rnd32, mx.map rnd32, by simp [Mat.map, h1], by simp [Mat.map, h2],
      covers_rnd32 h3 fun x hx => posOf_map hx⟩

/-! ## What was loaded is not changed by rounding -/

theorem floats_of_map {G : Type} {f : F → G} {m : Mesh F} {x : G} (h : x ∈ (m.map f).floats) :
    ∃ w, x = f w := by
  have v3 : ∀ v : Vec3 F, x ∈ (v.map f).floats → ∃ w, x = f w := by
    intro v hv
    simp only [Vec3.map, Vec3.floats, List.mem_cons, List.not_mem_nil, or_false] at hv
    rcases hv with h | h | h <;> exact ⟨_, h⟩
  have v4 : ∀ v : Vec4 F, x ∈ (v.map f).floats → ∃ w, x = f w := by
    intro v hv
    simp only [Vec4.map, Vec4.floats, List.mem_cons, List.not_mem_nil, or_false] at hv
    rcases hv with h | h | h | h <;> exact ⟨_, h⟩
  have ov : ∀ v : Option (Vec3 F), x ∈ optFloats (v.map (Vec3.map f)) → ∃ w, x = f w := by
    rintro (_ | v) hv
    · simp [optFloats] at hv
    · exact v3 v hv
  have mt : ∀ v : Mat4 F, x ∈ (v.map f).floats → ∃ w, x = f w := by
    intro v hv
    simp only [Mat4.map, Mat4.floats, List.mem_append] at hv
    rcases hv with ((h | h) | h) | h <;> exact v4 _ h
  simp only [Mesh.floats, List.mem_append] at h
  rcases h with (h | h) | h
  · obtain ⟨w, -, e⟩ := List.mem_map.1 h
    exact ⟨w, e.symm⟩
  · obtain ⟨g, hg, h⟩ := List.mem_flatMap.1 h
    obtain ⟨l, hl, h⟩ := List.mem_flatMap.1 h
    obtain ⟨g, -, rfl⟩ := List.mem_map.1 hg
    obtain ⟨l, -, rfl⟩ := List.mem_map.1 hl
    simp only [Lod.nodeFloats, List.mem_append] at h
    rcases h with (((h | h) | h) | h) | h
    · exact v3 _ h
    · exact v3 _ h
    · exact ov _ h
    · obtain ⟨r, hr, h⟩ := List.mem_flatMap.1 h
      obtain ⟨r, -, rfl⟩ := List.mem_map.1 hr
      obtain ⟨b, hb, h⟩ := List.mem_flatMap.1 h
      obtain ⟨b, -, rfl⟩ := List.mem_map.1 hb
      exact mt _ h
    · obtain ⟨n, hn, h⟩ := List.mem_flatMap.1 h
      obtain ⟨n, -, rfl⟩ := List.mem_map.1 hn
      exact mt _ h
  · obtain ⟨g, hg, h⟩ := List.mem_flatMap.1 h
    obtain ⟨l, hl, h⟩ := List.mem_flatMap.1 h
    obtain ⟨g, -, rfl⟩ := List.mem_map.1 hg
    obtain ⟨l, -, rfl⟩ := List.mem_map.1 hl
    obtain ⟨a, ha, h⟩ := List.mem_flatMap.1 h
    obtain ⟨a, -, rfl⟩ := List.mem_map.1 ha
    simp only [Mat.floats, List.mem_append] at h
    rcases h with h | h <;> exact ov _ h

theorem loaded_floats {pl : Plat} {k : Kind} {file : Bytes} {m : Mesh F64}
    (h : load pl k file = .ok m) : ∀ x ∈ m.floats, rnd32 x = x := by
  obtain ⟨r, -, rfl⟩ := load_ok_map.1 h
  intro x hx
  obtain ⟨w, rfl⟩ := floats_of_map hx
  exact unpackF_packF_unpackF w

theorem fixed_map {f : F → F} {m : Mesh F} (h : ∀ x ∈ m.floats, f x = x) : m.map f = m := by
  rw [Mesh.map_congr (g := id) (fun x hx => h x hx), Mesh.map_id]

/-! ## Rearranged meshes -/

/-- Geoms and materials of `m'` are those of `m` up to the ranges of the materials. -/
structure SamePieces (m m' : Mesh F) : Prop where
  shape : ∀ g' ∈ m'.geoms, ∃ g ∈ m.geoms, g'.shape = g.shape
  mats : ∀ a' ∈ m'.mats, ∃ a ∈ m.mats, a' = { a with
    vnum := a'.vnum, inum := a'.inum, vstart := a'.vstart, istart := a'.istart }

theorem shape_lod {g g' : Geom F} (h : g'.shape = g.shape) {l' : Lod F} (hl : l' ∈ g'.lods) :
    ∃ l ∈ g.lods, ({ l' with materials := [] } : Lod F) = { l with materials := [] } := by
  have h2 := congrArg Prod.snd h
  simp only [Geom.shape] at h2
  have : (({ l' with materials := [] } : Lod F), l'.materials.length) ∈
      g.lods.map fun l => (({ l with materials := [] } : Lod F), l.materials.length) := by
    rw [← h2]
    exact List.mem_map.2 ⟨l', hl, rfl⟩
  obtain ⟨l, hl, e⟩ := List.mem_map.1 this
  exact ⟨l, hl, (congrArg Prod.fst e).symm⟩

theorem mem_mats {m : Mesh F} {g : Geom F} (hg : g ∈ m.geoms) {l : Lod F} (hl : l ∈ g.lods) {a : Mat F}
    (ha : a ∈ l.materials) : a ∈ m.mats :=
  List.mem_flatMap.2 ⟨g, hg, List.mem_flatMap.2 ⟨l, hl, ha⟩⟩

theorem SamePieces.floats {m o m' : Mesh F} (h : SamePieces m m')
    (hv : ∀ x ∈ m'.vertices, x ∈ m.vertices ∨ x ∈ o.vertices) :
    ∀ x ∈ m'.floats, x ∈ m.floats ∨ x ∈ o.floats := by
  intro x hx
  simp only [Mesh.floats, List.mem_append] at hx ⊢
  rcases hx with (hx | hx) | hx
  · rcases hv x hx with h | h
    · exact .inl (.inl (.inl h))
    · exact .inr (.inl (.inl h))
  · obtain ⟨g', hg', hx⟩ := List.mem_flatMap.1 hx
    obtain ⟨l', hl', hx⟩ := List.mem_flatMap.1 hx
    obtain ⟨g, hg, hs⟩ := h.shape g' hg'
    obtain ⟨l, hl, he⟩ := shape_lod hs hl'
    refine .inl (.inl (.inr (List.mem_flatMap.2 ⟨g, hg, List.mem_flatMap.2 ⟨l, hl, ?_⟩⟩)))
    have : l'.nodeFloats = ({ l' with materials := [] } : Lod F).nodeFloats := rfl
    rw [this, he] at hx
    exact hx
  · obtain ⟨g', hg', hx⟩ := List.mem_flatMap.1 hx
    obtain ⟨l', hl', hx⟩ := List.mem_flatMap.1 hx
    obtain ⟨a', ha', hx⟩ := List.mem_flatMap.1 hx
    obtain ⟨a, ha, he⟩ := h.mats a' (mem_mats hg' hl' ha')
    obtain ⟨g, hg, ha⟩ := List.mem_flatMap.1 ha
    obtain ⟨l, hl, ha⟩ := List.mem_flatMap.1 ha
    refine .inl (.inr (List.mem_flatMap.2 ⟨g, hg, List.mem_flatMap.2 ⟨l, hl,
      List.mem_flatMap.2 ⟨a, ha, ?_⟩⟩⟩))
    rw [he] at hx
    exact hx

theorem isLong_between {pl : Plat} {v n : Int} (h : IsLong pl n) (h0 : 0 ≤ v) (hv : v ≤ n) :
    IsLong pl v := by
  unfold IsLong at h ⊢
  split at h <;> simp_all <;> omega

theorem sum_ge {f : Mat F → Int} {as : List (Mat F)} (h : ∀ a ∈ as, 0 ≤ f a) {i : Nat} {a : Mat F}
    (ha : as[i]? = some a) : 0 ≤ ((as.take i).map f).sum ∧ 0 ≤ f a ∧
      ((as.take i).map f).sum + f a ≤ (as.map f).sum := by
  induction as generalizing i with
  | nil => simp at ha
  | cons b bs ih =>
    have hb := h b (by simp)
    have ht : 0 ≤ (bs.map f).sum := by
      apply List.sum_nonneg
      intro y hy
      obtain ⟨c, hc, rfl⟩ := List.mem_map.1 hy
      exact h c (by simp [hc])
    rcases i with _ | i
    · simp only [List.getElem?_cons_zero, Option.some.injEq] at ha
      subst ha
      simp only [List.take_zero, List.map_nil, List.sum_nil, List.map_cons, List.sum_cons]
      omega
    · simp only [List.getElem?_cons_succ] at ha
      obtain ⟨h1, h2, h3⟩ := ih (fun a ha => h a (by simp [ha])) ha
      simp only [List.take_succ_cons, List.map_cons, List.sum_cons]
      omega

/-- The counts of a mesh in good order are the sums over its materials. -/
theorem Orderly.totals {vs : Nat} {m : Mesh F} (h : Orderly vs m) :
    (m.mats.map Mat.vnum).sum = m.vertnum ∧ (m.mats.map Mat.inum).sum = m.indexnum := by
  constructor
  · have h1 := h.verts.total
    have h2 := h.count
    have hp := h.verts.pos
    rw [h2, mul_comm] at h1
    exact (mul_right_cancel₀ (by omega : (vs : Int) ≠ 0) h1).symm
  · have h1 := h.index.total
    obtain ⟨l, hl⟩ := h.many
    have h2 := h.wf.index
    rw [hl] at h1 h2
    obtain ⟨h3, -, h4⟩ := h2
    rw [← h1]
    show (l.length : Int) = _
    omega

/-- A merged mesh has the vertices and indices of both. -/
theorem Merged.counts {vs : Nat} {m o m' : Mesh F} (h : Orderly vs m) (ho : Orderly vs o)
    (hc : Compatible m o) (hm : Merged vs m o m') : m'.vertnum = m.vertnum + o.vertnum ∧
    m'.indexnum = m.indexnum + o.indexnum ∧
    m'.vertices.length = m.vertices.length + o.vertices.length := by
  have hsum : ∀ f : Mat F → Int, (∀ a b : Mat F, f (addCounts a b) = f a + f b) →
      ((List.zipWith addCounts m.mats o.mats).map f).sum = (m.mats.map f).sum + (o.mats.map f).sum := by
    intro f hf
    have hlen := hc.mats_length
    generalize m.mats = as at hlen ⊢
    generalize o.mats = bs at hlen ⊢
    induction as generalizing bs with
    | nil => cases bs with
      | nil => rfl
      | cons b bs => simp at hlen
    | cons a as ih => cases bs with
      | nil => simp at hlen
      | cons b bs =>
        simp only [List.zipWith_cons_cons, List.map_cons, List.sum_cons, hf]
        rw [ih bs (by simpa using hlen)]
        omega
  have hvs := hsum Mat.vnum fun _ _ => rfl
  have his := hsum Mat.inum fun _ _ => rfl
  refine ⟨?_, ?_, ?_⟩
  · rw [hm.vertnum, hvs, h.totals.1, ho.totals.1]
  · rw [hm.indexnum, his, h.totals.2, ho.totals.2]
  · have hv := (hm.tiled h.inside ho.inside).1
    have : (m'.vertices.length : Int) = m.vertices.length + o.vertices.length := by
      rw [hv.total, hm.mats, retile_vnum, hvs, h.verts.total, ho.verts.total, Int.add_mul]
    omega

/-- The ranges of the materials of a mesh in good order fit their fields when the totals do. -/
theorem Orderly.ranges {vs : Nat} {m : Mesh F} (h : Orderly vs m) {pl : Plat}
    (hv : IsLong pl m.vertnum) (hi : IsLong pl m.indexnum) {a : Mat F} (ha : a ∈ m.mats) :
    IsLong pl a.vstart ∧ IsLong pl a.vnum ∧ IsLong pl a.istart ∧ IsLong pl a.inum := by
  obtain ⟨i, hia⟩ := List.mem_iff_getElem?.1 ha
  obtain ⟨hvs, his⟩ := h.totals
  obtain ⟨a1, a2, a3⟩ := sum_ge h.verts.nonneg hia
  obtain ⟨b1, b2, b3⟩ := sum_ge h.index.nonneg hia
  rw [hvs] at a3
  rw [his] at b3
  rw [h.verts.start i a hia, h.index.start i a hia]
  exact ⟨isLong_between hv a1 (by omega), isLong_between hv a2 (by omega),
    isLong_between hi b1 (by omega), isLong_between hi b2 (by omega)⟩

theorem SamePieces.inRange {vs : Nat} {m m' : Mesh F} {pl : Plat} (h : SamePieces m m')
    (same : SameFormat m m') (ord : Orderly vs m') (rng : InRange pl m) (hv : IsLong pl m'.vertnum)
    (hi : IsLong pl m'.indexnum) : InRange pl m' := by
  refine ⟨?_, ?_, ?_, ?_, ?_, ?_, ?_, ?_, ?_, ?_, ?_, ?_, hv, hi, ord.fit, ?_, ?_⟩
  · rw [same.head]; exact rng.head_u1
  · rw [same.head]; exact rng.version
  · rw [same.head]; exact rng.head_u3
  · rw [same.head]; exact rng.head_u4
  · rw [same.head]; exact rng.head_u5
  · rw [same.u1]; exact rng.u1
  · rw [same.geomnum]; exact rng.geomnum
  · intro g' hg'
    obtain ⟨g, hg, hs⟩ := h.shape g' hg'
    have : g'.lodnum = g.lodnum := congrArg Prod.fst hs
    rw [this]
    exact rng.lodnum g hg
  · rw [same.vertattribnum]; exact rng.vertattribnum
  · rw [same.vattrs]; exact rng.vattrs
  · rw [same.vertformat]; exact rng.vertformat
  · rw [same.vertstride]; exact rng.vertstride
  · rw [same.u2]; exact rng.u2
  · intro g' hg' l' hl'
    obtain ⟨g, hg, hs⟩ := h.shape g' hg'
    obtain ⟨l, hl, he⟩ := shape_lod hs hl'
    have r := rng.lods g hg l hl
    simp only [Lod.mk.injEq] at he
    obtain ⟨-, -, -, e1, e2, e3, -, e4, -⟩ := he
    refine ⟨by rw [e1]; exact r.rignum, by rw [e2]; exact r.bonenum, by rw [e2]; exact r.boneid,
      by rw [e3]; exact r.nodenum, by rw [e4]; exact r.matnum, fun a' ha' => ?_⟩
    have hm := mem_mats hg' hl' ha'
    obtain ⟨c1, c2, c3, c4⟩ := ord.ranges hv hi hm
    obtain ⟨a, ha, hf⟩ := h.mats a' hm
    obtain ⟨g0, hg0, ha⟩ := List.mem_flatMap.1 ha
    obtain ⟨l0, hl0, ha⟩ := List.mem_flatMap.1 ha
    have ra := (rng.lods g0 hg0 l0 hl0).mats a ha
    rw [hf]
    exact ⟨ra.1, ra.2, ra.3, ra.4, ra.5, c1, c3, c4, c2, ra.10, ra.11⟩

theorem reorder_pieces {vs : Nat} {m m' : Mesh F} {js : List Nat}
    (h : List.Forall₂ (GeomKept vs m m') (js.filterMap fun j => m.geoms[j]?) m'.geoms) :
    SamePieces m m' := by
  have key : ∀ g' ∈ m'.geoms, ∃ g ∈ m.geoms, GeomKept vs m m' g g' := by
    intro g' hg'
    obtain ⟨i, hi⟩ := List.mem_iff_getElem?.1 hg'
    have hlt : i < (js.filterMap fun j => m.geoms[j]?).length := by
      rw [h.length_eq]
      exact (List.getElem?_eq_some_iff.1 hi).1
    have hg := h.get (i := i) hlt (List.getElem?_eq_some_iff.1 hi).1
    refine ⟨_, ?_, by
      have := (List.getElem?_eq_some_iff.1 hi).2
      simpa [this] using hg⟩
    have := List.getElem_mem hlt
    obtain ⟨j, -, hj⟩ := List.mem_filterMap.1 this
    exact List.mem_of_getElem? hj
  refine ⟨fun g' hg' => ?_, fun a' ha' => ?_⟩
  · obtain ⟨g, hg, hk⟩ := key g' hg'
    exact ⟨g, hg, hk.shape⟩
  · obtain ⟨g', hg', ha'⟩ := List.mem_flatMap.1 ha'
    obtain ⟨g, hg, hk⟩ := key g' hg'
    obtain ⟨i, hi⟩ := List.mem_iff_getElem?.1 ha'
    have hlt' := (List.getElem?_eq_some_iff.1 hi).1
    have hlt : i < g.mats.length := by rw [hk.mats.length_eq]; exact hlt'
    have hm := hk.mats.get hlt hlt'
    have e := (List.getElem?_eq_some_iff.1 hi).2
    refine ⟨g.mats[i], List.mem_flatMap.2 ⟨g, hg, List.getElem_mem hlt⟩, ?_⟩
    have hf := hm.fields
    simp only [List.get_eq_getElem, e] at hf
    rw [hf]

theorem reorder_vertices {vs : Nat} {m m' : Mesh F} {gs : List (Geom F)}
    (h : m'.vertices = (gs.flatMap Geom.mats).flatMap (vertexData vs m)) :
    ∀ x ∈ m'.vertices, x ∈ m.vertices := by
  intro x hx
  rw [h] at hx
  obtain ⟨a, -, hx⟩ := List.mem_flatMap.1 hx
  exact List.mem_of_mem_drop (List.mem_of_mem_take hx)

theorem zipWith_mem {α β γ : Type} {f : α → β → γ} {as : List α} {bs : List β} {c : γ}
    (h : c ∈ List.zipWith f as bs) : ∃ a ∈ as, ∃ b ∈ bs, c = f a b := by
  rw [← List.map_uncurry_zip_eq_zipWith] at h
  obtain ⟨⟨a, b⟩, hab, rfl⟩ := List.mem_map.1 h
  have := List.of_mem_zip hab
  exact ⟨a, this.1, b, this.2, rfl⟩

theorem Merged.pieces {vs : Nat} {m o m' : Mesh F} (h : Merged vs m o m') : SamePieces m m' := by
  refine ⟨fun g' hg' => ?_, fun a' ha' => ?_⟩
  · have : g'.shape ∈ m.geoms.map Geom.shape := by
      rw [← h.shape]
      exact List.mem_map.2 ⟨g', hg', rfl⟩
    obtain ⟨g, hg, e⟩ := List.mem_map.1 this
    exact ⟨g, hg, e.symm⟩
  · rw [h.mats] at ha'
    obtain ⟨k, hk⟩ := List.mem_iff_getElem?.1 ha'
    obtain ⟨c, hc, rfl⟩ := retile_fields hk
    obtain ⟨a, ha, b, -, rfl⟩ := zipWith_mem (List.mem_of_getElem? hc)
    exact ⟨a, ha, rfl⟩

theorem Merged.from_vertices {vs : Nat} {m o m' : Mesh F} (h : Merged vs m o m') :
    ∀ x ∈ m'.vertices, x ∈ m.vertices ∨ x ∈ o.vertices := by
  intro x hx
  rw [h.vertices] at hx
  obtain ⟨l, hl, hx⟩ := List.mem_flatten.1 hx
  obtain ⟨a, -, b, -, rfl⟩ := zipWith_mem hl
  rcases List.mem_append.1 hx with hx | hx
  · exact .inl (List.mem_of_mem_drop (List.mem_of_mem_take hx))
  · exact .inr (List.mem_of_mem_drop (List.mem_of_mem_take hx))

/-! ## Saving and loading again -/

theorem PositionAt.congr {vs o : Nat} {m m' : Mesh F} {p : VAttr} (h : PositionAt vs o m p)
    (ha : m'.vattrs = m.vattrs) (hf : m'.vertformat = m.vertformat) : PositionAt vs o m' p :=
  ⟨by rw [ha]; exact h.last, by rw [hf]; exact h.start, h.wide, h.fits⟩

theorem AttrsKnown.congr {m m' : Mesh F} (h : AttrsKnown m) (ha : m'.vattrs = m.vattrs)
    (hf : m'.vertformat = m.vertformat) : AttrsKnown m' := by
  unfold AttrsKnown
  rw [ha, hf]
  exact h

/-- Exporting a mesh in good order to a directory that exists: the program ends without exception,
one file is written, and the file holds the mesh with new bounds, rounded to binary32. -/
theorem save_reload {pl : Plat} {fs : FS} {o : Obj F64} {path : Str} {loc : Loc} {vs p : Nat}
    {a : VAttr} (slash : '/' ∈ path) (place : fs.resolve path = .ok loc)
    (free : fs.node loc ≠ some .dir) (ord : Orderly vs o.mesh) (pos : PositionAt vs p o.mesh a)
    (attr : AttrsKnown o.mesh) (rng : InRange pl o.mesh) (kind : o.mesh.kind = kindOfName path) :
    ∃ fs' bytes, exportLast pl fs o path = (fs', none) ∧ fs'.node loc = some (.file bytes) ∧
      fs'.cwd = fs.cwd ∧ (∀ q, q ≠ loc → fs'.node q = fs.node q) ∧
      (∀ fl, construct pl fs' (some path) fl =
        .ok ⟨path, true, (updateBoundaries o.mesh).1.map rnd32⟩) ∧
      (Bounded o.mesh → BoundsAre Covers vs p ((updateBoundaries o.mesh).1.map rnd32)
        ((updateBoundaries o.mesh).1.map rnd32)) := by
  have ord2 := ord.update
  have same := update_format o.mesh
  have ok := C45_update_succeeds ord.verts.size pos attr ord.verts.inside
  have hb : boundsFor o.mesh true = ((updateBoundaries o.mesh).1, none) := by
    unfold boundsFor
    rw [if_pos rfl, ← ok]
  obtain ⟨l, hl⟩ := ord2.many
  have herr := (exportMesh_err (pl := pl) ord2.wf hl).2 (update_inRange rng)
  have he : exportMesh pl (updateBoundaries o.mesh).1 =
      ⟨(exportMesh pl (updateBoundaries o.mesh).1).bytes, none⟩ := by rw [← herr]
  obtain ⟨fs', h1, h2, h3, h4⟩ := C18_existing_directory slash place free hb he
  refine ⟨fs', _, ?_, h2, h3, h4, fun fl => ?_, fun bnd => boundsAre_rnd32 ?_⟩
  · unfold exportLast
    rw [h1]
  · have hne : path ≠ [] := by rintro rfl; simp at slash
    have hr := C18_reload h1 hne fl
    simp only at hr
    rw [hr, ← kind, ← same.kind, C02_reload_of_export pl _ _ ord2.wf he]
  · have idem : updateBoundaries (updateBoundaries o.mesh).1 = ((updateBoundaries o.mesh).1, none) := by
      rw [C48_idempotent, ← ok]
    have bnd2 : Bounded (updateBoundaries o.mesh).1 := by
      unfold Bounded
      rw [same.kind, same.head]
      exact bnd
    exact C45_bounds_contain bnd2 ord2.verts.size (pos.congr same.vattrs same.vertformat)
      ord2.verts.inside idem

end Bf2
