import Verif.TravLemmas

/-! # Lemmas about `changeGeomsOrder` -/

namespace Bf2

variable {F : Type}

theorem reorderGeom_lift (vs : Nat) (m : Mesh F) :
    reorderGeom vs m = geomLift (reorderMat vs m) := rfl

/-- The reordering loop over materials whose data lies inside the arrays. -/
theorem reorderMats_eq {vs : Nat} {m : Mesh F} {ix : List Int} (hpos : 0 < vs)
    (hix : m.index = .many ix) (ms : List (Mat F)) (s : Arrays F) (q : Nat)
    (hv : ∀ a ∈ ms, VertsInside vs m a) (hi : ∀ a ∈ ms, IndexInside m a)
    (hq : s.vertices.length = q * vs) (hb : q + (ms.map Mat.vnum).sum ≤ 2 ^ 53) :
    trav (reorderMat vs m) s ms =
      (⟨s.vertices ++ ms.flatMap (vertexData vs m), s.index ++ ms.flatMap (indexData m)⟩,
        retile q s.index.length ms, none) := by
  induction ms generalizing s q with
  | nil => simp [trav, retile]
  | cons a as ih =>
    have hva := hv a (by simp)
    have hia := hi a (by simp)
    have hdv := vertexData_length vs m a hva
    have hdi : (indexData m a).length = a.inum.toNat := block_length _ hia.1 hia.2.1 hia.2.2
    have hsl : pySlice ix a.istart (a.istart + a.inum) = indexData m a := by
      rw [pySlice_block ix hia.1 hia.2.1]
      unfold indexData; rw [hix]; rfl
    have hnn : 0 ≤ (as.map Mat.vnum).sum :=
      sum_nonneg fun b hb => (hv b (by simp [hb])).2.1
    have h0 := hva.2.1
    have h1 := hia.2.1
    rw [List.map_cons, List.sum_cons] at hb
    have hlen : (s.vertices ++ vertexData vs m a).length = (q + a.vnum.toNat) * vs := by
      rw [List.length_append, hq, hdv]; ring
    have hdiv : intTrueDiv ((s.vertices ++ vertexData vs m a).length : Nat) (vs : Int) =
        ((q + a.vnum.toNat : Nat) : Int) := by
      apply intTrueDiv_exact (by omega)
      · rw [hlen]; push_cast; ring
      · rw [abs_of_nonneg (by omega)]; omega
    have hstep : reorderMat vs m s a = (⟨s.vertices ++ vertexData vs m a, s.index ++ indexData m a⟩,
        { a with vstart := q, istart := s.index.length }, none) := by
      unfold reorderMat
      simp only [hix, matVertices_eq vs m a hva, hsl]
      rw [if_neg (by omega), hdiv]
      have e1 : ((q + a.vnum.toNat : Nat) : Int) - a.vnum = q := by omega
      have e2 : (((s.index ++ indexData m a).length : Nat) : Int) - a.inum = s.index.length := by
        rw [List.length_append, hdi]; omega
      rw [e1, e2]
    rw [trav, hstep]
    simp only
    rw [ih ⟨_, _⟩ (q + a.vnum.toNat) (fun b hb => hv b (by simp [hb]))
      (fun b hb => hi b (by simp [hb])) hlen (by omega)]
    simp only [List.flatMap_cons, List.append_assoc, retile]
    have e1 : ((q + a.vnum.toNat : Nat) : Int) = q + a.vnum := by omega
    have e2 : (((s.index ++ indexData m a).length : Nat) : Int) = s.index.length + a.inum := by
      rw [List.length_append, hdi]; omega
    rw [e1, e2]

theorem pyPos_names {n : Nat} {id : Int} {j : Nat} (h : Names n id j) : pyPos n id = some j := by
  obtain ⟨hj, h | h⟩ := h
  · unfold pyPos
    simp only
    rw [if_neg (show ¬ id < 0 by omega), if_pos (by omega)]
    congr 1; omega
  · unfold pyPos
    simp only
    rw [if_pos (show id < 0 by omega), if_pos (by omega)]
    congr 1; omega

theorem names_pyPos {n : Nat} {id : Int} {j : Nat} (h : pyPos n id = some j) : Names n id j := by
  unfold pyPos at h
  simp only at h
  by_cases hn : id < 0
  · rw [if_pos hn] at h
    split at h
    · simp at h; constructor <;> omega
    · simp at h
  · rw [if_neg hn] at h
    split at h
    · simp at h; constructor <;> omega
    · simp at h

/-- The loop over geom ids: with distinct ids every geom is met in its original state. -/
theorem reorderGeoms_eq {vs : Nat} {m : Mesh F} (ids : List Int) (js : List Nat)
    (gs : List (Geom F)) (s : Arrays F) (hn : List.Forall₂ (Names gs.length) ids js)
    (hd : js.Nodup) (s' : Arrays F) (out : List (Geom F))
    (ht : trav (reorderGeom vs m) s (js.filterMap fun j => gs[j]?) = (s', out, none)) :
    ∃ gs', reorderGeoms vs m gs s ids = ⟨gs', s', js, none⟩ ∧
      (js.filterMap fun j => gs'[j]?) = out ∧ (∀ k, k ∉ js → gs'[k]? = gs[k]?) := by
  induction ids generalizing js gs s out with
  | nil =>
    cases hn
    simp only [List.filterMap_nil, trav, Prod.mk.injEq] at ht
    obtain ⟨rfl, rfl, _⟩ := ht
    exact ⟨gs, rfl, rfl, fun _ _ => rfl⟩
  | cons id ids ih =>
    cases hn with
    | @cons _ j _ js hj hn =>
    have hjl := hj.1
    have hg : gs[j]? = some gs[j] := by simp
    rw [List.nodup_cons] at hd
    rw [List.filterMap_cons_some hg, trav] at ht
    rcases hstep : reorderGeom vs m s gs[j] with ⟨s1, g1, _ | e⟩
    · rw [hstep] at ht
      simp only at ht
      have hl : (gs.set j g1).length = gs.length := by simp
      have hsame : (js.filterMap fun k => (gs.set j g1)[k]?) = js.filterMap fun k => gs[k]? := by
        apply List.filterMap_congr
        intro k hk
        rw [List.getElem?_set_ne]
        rintro rfl
        exact hd.1 hk
      rcases hrest : trav (reorderGeom vs m) s1 (js.filterMap fun k => gs[k]?) with ⟨s2, out2, e2⟩
      rw [hrest] at ht
      simp only [Prod.mk.injEq] at ht
      obtain ⟨rfl, rfl, rfl⟩ := ht
      obtain ⟨gs', h1, h2, h3⟩ := ih js (gs.set j g1) s1 (by rw [hl]; exact hn) hd.2 out2
        (by rw [hsame]; exact hrest)
      refine ⟨gs', ?_, ?_, ?_⟩
      · rw [reorderGeoms, pyPos_names hj]
        simp only [hg, hstep, h1]
      · have hj' : gs'[j]? = some g1 := by
          rw [h3 j hd.1, List.getElem?_set_self hjl]
        rw [List.filterMap_cons_some hj', h2]
      · intro k hk
        rw [List.mem_cons, not_or] at hk
        rw [h3 k hk.2, List.getElem?_set_ne (Ne.symm hk.1)]
    · rw [hstep] at ht
      simp at ht

theorem filterMap_range {α : Type} (l : List α) :
    (List.range l.length).filterMap (fun j => l[j]?) = l := by
  induction l with
  | nil => rfl
  | cons a as ih =>
    rw [List.length_cons, List.range_succ_eq_map, List.filterMap_cons_some (b := a) (by simp),
      List.filterMap_map]
    congr 1

theorem permutes_picked {α : Type} {l : List α} {order : List Int} {js : List Nat}
    (h : Permutes l.length order js) : (js.filterMap fun j => l[j]?).Perm l := by
  have := h.perm.filterMap (fun j => l[j]?)
  rwa [filterMap_range] at this

/-- Reordering by a permutation, all materials inside the arrays. -/
theorem changeGeomsOrder_eq {vs : Nat} {m : Mesh F} {ix : List Int} {order : List Int}
    {js : List Nat} (hin : Inside vs m) (hix : m.index = .many ix)
    (hb : (m.mats.map Mat.vnum).sum ≤ 2 ^ 53) (hp : Permutes m.geoms.length order js) :
    ∃ gs : List (Geom F), changeGeomsOrder m order = ({ m with
        geoms := gs
        vertices := (((js.filterMap fun j => m.geoms[j]?).flatMap Geom.mats).flatMap
          (vertexData vs m))
        index := .many (((js.filterMap fun j => m.geoms[j]?).flatMap Geom.mats).flatMap
          (indexData m)) }, none) ∧
      gs.map Geom.shape = (js.filterMap fun j => m.geoms[j]?).map Geom.shape ∧
      gs.flatMap Geom.mats = retile 0 0 ((js.filterMap fun j => m.geoms[j]?).flatMap Geom.mats) := by
  obtain ⟨picked, hpk⟩ : ∃ p, p = js.filterMap fun j => m.geoms[j]? := ⟨_, rfl⟩
  have hperm : picked.Perm m.geoms := by rw [hpk]; exact permutes_picked hp
  have hmats : (picked.flatMap Geom.mats).Perm m.mats := hperm.flatMap_right _
  have hlen : order.length = m.geoms.length := by
    rw [hp.names.length_eq, hp.perm.length_eq, List.length_range]
  have hsz := (vertexSize_iff _ _).2 hin.size
  have hsum : ((picked.flatMap Geom.mats).map Mat.vnum).sum = (m.mats.map Mat.vnum).sum :=
    (hmats.map _).sum_eq
  have hflat := reorderMats_eq hin.pos hix (picked.flatMap Geom.mats) ⟨[], []⟩ 0
    (fun a ha => hin.verts a (hmats.mem_iff.1 ha)) (fun a ha => hin.index a (hmats.mem_iff.1 ha))
    (by simp) (by rw [hsum]; simpa using hb)
  obtain ⟨h1, h2⟩ := trav_geoms (reorderMat vs m) ⟨[], []⟩ picked
  rw [hflat] at h1
  simp only [Prod.mk.injEq, List.nil_append, List.length_nil, Nat.cast_zero] at h1
  obtain ⟨hs, hm, he⟩ := h1
  have ht : trav (reorderGeom vs m) ⟨[], []⟩ picked =
      ((trav (geomLift (reorderMat vs m)) ⟨[], []⟩ picked).1,
        (trav (geomLift (reorderMat vs m)) ⟨[], []⟩ picked).2.1, none) := by
    rw [reorderGeom_lift, ← he]
  rw [hs] at ht
  rw [hpk] at ht
  obtain ⟨gs', hg1, hg2, -⟩ := reorderGeoms_eq order js m.geoms ⟨[], []⟩ hp.names
    (hp.perm.nodup_iff.2 List.nodup_range) _ _ ht
  rw [← hpk] at hg1 hg2 ⊢
  refine ⟨_, ?_, h2, hm⟩
  unfold changeGeomsOrder
  rw [if_neg (by omega), hsz]
  simp only [hg1, hg2]

/-! ## Meshes with consecutive ranges over concatenated data -/

theorem sum_lengths {α : Type} {f : Mat F → Int} {k : Nat} {l : List (Mat F)} {ds : List (List α)}
    (h : List.Forall₂ (fun a d => 0 ≤ f a ∧ d.length = (f a).toNat * k) l ds) :
    (((ds.map List.length).sum : Nat) : Int) = (l.map f).sum * k := by
  induction h with
  | nil => simp
  | cons hd _ ih =>
    obtain ⟨h0, h1⟩ := hd
    simp only [List.map_cons, List.sum_cons, Nat.cast_add, ih, h1, Nat.cast_mul]
    rw [Int.toNat_of_nonneg h0]
    ring

theorem retile_fields {v i : Int} {l : List (Mat F)} {k : Nat} {a : Mat F}
    (h : (retile v i l)[k]? = some a) : ∃ b, l[k]? = some b ∧
      a = { b with vstart := v + ((l.take k).map Mat.vnum).sum,
                   istart := i + ((l.take k).map Mat.inum).sum } := by
  rw [retile_getElem?] at h
  rcases hb : l[k]? with _ | b
  · rw [hb] at h; simp at h
  · rw [hb] at h
    simp only [Option.map_some, Option.some.injEq] at h
    exact ⟨b, rfl, h.symm⟩

theorem retile_mem {v i : Int} {l : List (Mat F)} {a : Mat F} (h : a ∈ retile v i l) :
    ∃ b ∈ l, a.vnum = b.vnum ∧ a.inum = b.inum := by
  obtain ⟨k, hk⟩ := List.mem_iff_getElem?.1 h
  obtain ⟨b, hb, rfl⟩ := retile_fields hk
  exact ⟨b, List.mem_of_getElem? hb, rfl, rfl⟩

theorem forall₂_left {α β : Type} {R : α → β → Prop} {P : α → Prop} {l : List α} {r : List β}
    (h : List.Forall₂ R l r) (hp : ∀ a b, R a b → P a) : ∀ a ∈ l, P a := by
  induction h with
  | nil => simp
  | cons hab _ ih =>
    intro a ha
    rcases List.mem_cons.1 ha with rfl | ha
    · exact hp _ _ hab
    · exact ih a ha

theorem retile_tiledVerts {vs : Nat} {m : Mesh F} {l : List (Mat F)} {ds : List (List F)}
    (hpos : 0 < vs) (hsz : VertexSize m.vattrs vs) (hm : m.mats = retile 0 0 l)
    (hv : m.vertices = ds.flatten)
    (hd : List.Forall₂ (fun a d => 0 ≤ a.vnum ∧ d.length = a.vnum.toNat * vs) l ds) :
    TiledVerts vs m where
  pos := hpos
  size := hsz
  nonneg := by
    intro a ha
    rw [hm] at ha
    obtain ⟨b, hb, h1, -⟩ := retile_mem ha
    rw [h1]
    exact forall₂_left hd (fun _ _ h => h.1) b hb
  start := by
    intro i a ha
    rw [hm] at ha
    obtain ⟨b, hb, rfl⟩ := retile_fields ha
    simp only [hm, List.map_take, retile_vnum, Int.zero_add]
  total := by
    rw [hv, List.length_flatten, sum_lengths hd, hm, retile_vnum]

theorem retile_tiledIndex {m : Mesh F} {l : List (Mat F)} {ds : List (List Int)}
    (hm : m.mats = retile 0 0 l) (hv : m.index = .many ds.flatten)
    (hd : List.Forall₂ (fun a d => 0 ≤ a.inum ∧ d.length = a.inum.toNat) l ds) :
    TiledIndex m where
  nonneg := by
    intro a ha
    rw [hm] at ha
    obtain ⟨b, hb, -, h1⟩ := retile_mem ha
    rw [h1]
    exact forall₂_left hd (fun _ _ h => h.1) b hb
  start := by
    intro i a ha
    rw [hm] at ha
    obtain ⟨b, hb, rfl⟩ := retile_fields ha
    simp only [hm, List.map_take, retile_inum, Int.zero_add]
  total := by
    rw [hv]
    have := sum_lengths (k := 1) (f := Mat.inum) (by simpa using hd)
    simp only [OneOrMany.elems, List.length_flatten]
    rw [this, hm, retile_inum]; simp

/-- The data of the materials are the parts of the arrays. -/
theorem retile_data {vs : Nat} {m : Mesh F} {l : List (Mat F)} {ds : List (List F)}
    {es : List (List Int)} (hm : m.mats = retile 0 0 l) (hv : m.vertices = ds.flatten)
    (hi : m.index = .many es.flatten)
    (hd : List.Forall₂ (fun a d => 0 ≤ a.vnum ∧ d.length = a.vnum.toNat * vs) l ds)
    (he : List.Forall₂ (fun a d => 0 ≤ a.inum ∧ d.length = a.inum.toNat) l es)
    {i : Nat} {a : Mat F} {d : List F} {e : List Int} (ha : m.mats[i]? = some a)
    (hdi : ds[i]? = some d) (hei : es[i]? = some e) :
    vertexData vs m a = d ∧ indexData m a = e := by
  rw [hm] at ha
  obtain ⟨b, hb, rfl⟩ := retile_fields ha
  obtain ⟨d', hd', hnv, hlv⟩ := forall₂_getElem? hd hb
  obtain ⟨e', he', hni, hli⟩ := forall₂_getElem? he hb
  rw [hdi] at hd'; rw [hei] at he'
  simp only [Option.some.injEq] at hd' he'
  subst hd' he'
  constructor
  · unfold vertexData
    rw [hv]
    apply block_flatten ds i d hdi
    · rw [sum_lengths (k := vs) (f := Mat.vnum) (List.forall₂_take i hd)]
      simp
    · rw [hlv]; push_cast; rw [Int.toNat_of_nonneg hnv]
  · unfold indexData
    rw [hi]
    apply block_flatten es i e hei
    · have := sum_lengths (k := 1) (f := Mat.inum) (List.forall₂_take i (by simpa using he))
      rw [this]; simp
    · rw [hli]; rw [Int.toNat_of_nonneg hni]

theorem forall₂_map_self {α β : Type} {R : α → β → Prop} {f : α → β} {l : List α}
    (h : ∀ a ∈ l, R a (f a)) : List.Forall₂ R l (l.map f) := by
  induction l with
  | nil => exact .nil
  | cons a as ih => exact .cons (h a (by simp)) (ih fun b hb => h b (by simp [hb]))

/-- A mesh whose materials are those of `l` retiled over their data in `m` keeps them. -/
theorem retile_kept {vs : Nat} {m m' : Mesh F} {l : List (Mat F)}
    (hm : m'.mats = retile 0 0 l) (hv : m'.vertices = l.flatMap (vertexData vs m))
    (hi : m'.index = .many (l.flatMap (indexData m)))
    (hvi : ∀ a ∈ l, VertsInside vs m a) (hii : ∀ a ∈ l, IndexInside m a) :
    List.Forall₂ (MatKept vs m m') l m'.mats := by
  have hd : List.Forall₂ (fun (a : Mat F) (d : List F) => 0 ≤ a.vnum ∧
      d.length = a.vnum.toNat * vs) l (l.map (vertexData vs m)) :=
    forall₂_map_self fun a ha => ⟨(hvi a ha).2.1, vertexData_length vs m a (hvi a ha)⟩
  have he : List.Forall₂ (fun (a : Mat F) (d : List Int) => 0 ≤ a.inum ∧
      d.length = a.inum.toNat) l (l.map (indexData m)) :=
    forall₂_map_self fun a ha => ⟨(hii a ha).2.1,
      block_length _ (hii a ha).1 (hii a ha).2.1 (hii a ha).2.2⟩
  rw [List.flatMap_def] at hv hi
  apply forall₂_of_getElem?
  · rw [hm, retile_length]
  · intro i a a' ha ha'
    obtain ⟨h1, h2⟩ := retile_data hm hv hi hd he ha' (d := vertexData vs m a)
      (e := indexData m a) (by simp [ha]) (by simp [ha])
    refine ⟨?_, h1, h2⟩
    rw [hm] at ha'
    obtain ⟨b, hb, rfl⟩ := retile_fields ha'
    rw [ha] at hb
    simp only [Option.some.injEq] at hb
    subst hb
    rfl

/-- Retiling does not look at the old places. -/
theorem retile_congr {v i : Int} {l l' : List (Mat F)}
    (h : List.Forall₂ (fun a a' : Mat F => a' = { a with vstart := a'.vstart, istart := a'.istart })
      l l') : retile v i l' = retile v i l := by
  induction h generalizing v i with
  | nil => rfl
  | cons hab _ ih =>
    rw [retile, retile, ih, hab]

/-- Retiling tiled materials changes nothing. -/
theorem retile_tiled {l : List (Mat F)} (v i : Int)
    (hv : ∀ (k : Nat) a, l[k]? = some a → a.vstart = v + ((l.take k).map Mat.vnum).sum)
    (hi : ∀ (k : Nat) a, l[k]? = some a → a.istart = i + ((l.take k).map Mat.inum).sum) :
    retile v i l = l := by
  apply List.ext_getElem?
  intro k
  rw [retile_getElem?]
  rcases hk : l[k]? with _ | a
  · rfl
  · have h1 := hv k a hk
    have h2 := hi k a hk
    cases a
    simp_all

theorem TiledVerts.sum_le {vs : Nat} {m : Mesh F} (h : TiledVerts vs m)
    (hb : m.vertices.length ≤ 2 ^ 53) : (m.mats.map Mat.vnum).sum ≤ 2 ^ 53 := by
  have h1 := h.total
  have h2 := h.pos
  have h3 := sum_nonneg h.nonneg
  have : (m.mats.map Mat.vnum).sum * 1 ≤ (m.mats.map Mat.vnum).sum * vs :=
    Int.mul_le_mul_of_nonneg_left (by omega) h3
  omega

theorem forall₂_flatten {α β γ δ : Type} {R : α → β → Prop} {f : γ → List α} {g : δ → List β}
    {l : List γ} {r : List δ} (h : List.Forall₂ (fun c d => List.Forall₂ R (f c) (g d)) l r) :
    List.Forall₂ R (l.flatMap f) (r.flatMap g) := by
  induction h with
  | nil => exact .nil
  | cons hcd _ ih =>
    rw [List.flatMap_cons, List.flatMap_cons]
    exact List.rel_append hcd ih

theorem forall₂_flatMap_eq {α β γ : Type} {R : α → β → Prop} {f : α → List γ} {g : β → List γ}
    {l : List α} {r : List β} (h : List.Forall₂ R l r) (hfg : ∀ a b, R a b → g b = f a) :
    r.flatMap g = l.flatMap f := by
  induction h with
  | nil => rfl
  | cons hab _ ih => rw [List.flatMap_cons, List.flatMap_cons, ih, hfg _ _ hab]

theorem _root_.List.Forall₂.trans_rel {α β γ : Type} {R : α → β → Prop} {S : β → γ → Prop}
    {l : List α} {r : List β} {t : List γ} (h : List.Forall₂ R l r) (h' : List.Forall₂ S r t) :
    List.Forall₂ (fun a c => ∃ b, R a b ∧ S b c) l t := by
  induction h generalizing t with
  | nil => cases h'; exact .nil
  | cons hab _ ih =>
    cases h' with
    | cons hbc ht => exact .cons ⟨_, hab, hbc⟩ (ih ht)

theorem forall₂_and {α β : Type} {R S : α → β → Prop} {l : List α} {r : List β}
    (h : List.Forall₂ R l r) (h' : List.Forall₂ S l r) :
    List.Forall₂ (fun a b => R a b ∧ S a b) l r := by
  induction h with
  | nil => exact .nil
  | cons hab _ ih =>
    cases h' with
    | cons hab' ht => exact .cons ⟨hab, hab'⟩ (ih ht)

theorem picked_getElem? {α : Type} {l : List α} {order : List Int} {js : List Nat}
    (h : Permutes l.length order js) {k j : Nat} {a : α} (hk : js[k]? = some j)
    (ha : l[j]? = some a) : (js.filterMap fun j => l[j]?)[k]? = some a := by
  have hall : ∀ j ∈ js, j < l.length := fun j hj => List.mem_range.1 (h.perm.mem_iff.1 hj)
  clear h
  induction js generalizing k with
  | nil => simp at hk
  | cons i js ih =>
    have hi := hall i (by simp)
    rw [List.filterMap_cons_some (List.getElem?_eq_getElem hi)]
    cases k with
    | zero =>
      simp only [List.getElem?_cons_zero, Option.some.injEq] at hk
      subst hk
      rw [List.getElem?_eq_getElem hi] at ha
      simpa using ha
    | succ k =>
      simp only [List.getElem?_cons_succ] at hk ⊢
      exact ih hk fun j hj => hall j (by simp [hj])

/-- Reordering by a permutation: what the new mesh is. -/
theorem changeGeomsOrder_kept {vs : Nat} {m : Mesh F} {ix : List Int} {order : List Int}
    {js : List Nat} (hin : Inside vs m) (hix : m.index = .many ix)
    (hb : (m.mats.map Mat.vnum).sum ≤ 2 ^ 53) (hp : Permutes m.geoms.length order js) :
    ∃ m' : Mesh F, changeGeomsOrder m order = (m', none) ∧
      m' = { m with geoms := m'.geoms, vertices := m'.vertices, index := m'.index } ∧
      List.Forall₂ (GeomKept vs m m') (js.filterMap fun j => m.geoms[j]?) m'.geoms ∧
      ((m'.mats.map Mat.vnum).sum = (m.mats.map Mat.vnum).sum ∧
        (m'.mats.map Mat.inum).sum = (m.mats.map Mat.inum).sum) ∧
      TiledVerts vs m' ∧ TiledIndex m' ∧
      m'.mats = retile 0 0 ((js.filterMap fun j => m.geoms[j]?).flatMap Geom.mats) ∧
      m'.vertices = ((js.filterMap fun j => m.geoms[j]?).flatMap Geom.mats).flatMap
          (vertexData vs m) ∧
      m'.index = .many (((js.filterMap fun j => m.geoms[j]?).flatMap Geom.mats).flatMap
          (indexData m)) := by
  obtain ⟨gs, h, hsh, hm⟩ := changeGeomsOrder_eq hin hix hb hp
  have hperm := permutes_picked hp
  generalize (js.filterMap fun j => m.geoms[j]?) = picked at *
  have hmats : (picked.flatMap Geom.mats).Perm m.mats := hperm.flatMap_right _
  have hvi : ∀ a ∈ picked.flatMap Geom.mats, VertsInside vs m a :=
    fun a ha => hin.verts a (hmats.mem_iff.1 ha)
  have hii : ∀ a ∈ picked.flatMap Geom.mats, IndexInside m a :=
    fun a ha => hin.index a (hmats.mem_iff.1 ha)
  refine ⟨_, h, rfl, ?_, ⟨?_, ?_⟩, ?_, ?_, hm, rfl, rfl⟩
  · have hk := retile_kept (m' := { m with
      geoms := gs
      vertices := (picked.flatMap Geom.mats).flatMap (vertexData vs m)
      index := .many ((picked.flatMap Geom.mats).flatMap (indexData m)) }) hm rfl rfl hvi hii
    have hshape : List.Forall₂ (fun g g' : Geom F => g'.shape = g.shape) picked gs := by
      rw [← List.forall₂_map_right_iff (f := Geom.shape) (R := fun (g : Geom F) s => s = g.shape),
        hsh, List.forall₂_map_right_iff]
      exact List.forall₂_same.2 fun _ _ => rfl
    have hlen : List.Forall₂ (fun g g' : Geom F => g.mats.length = g'.mats.length) picked gs :=
      hshape.imp fun g g' hg => shape_mats_length hg.symm
    exact (forall₂_and hshape (forall₂_flatMap hlen hk)).imp fun _ _ h => ⟨h.1, h.2⟩
  · have : (gs.flatMap Geom.mats).map Mat.vnum = (picked.flatMap Geom.mats).map Mat.vnum := by
      rw [hm, retile_vnum]
    change ((gs.flatMap Geom.mats).map Mat.vnum).sum = _
    rw [this]
    exact (hmats.map _).sum_eq
  · have : (gs.flatMap Geom.mats).map Mat.inum = (picked.flatMap Geom.mats).map Mat.inum := by
      rw [hm, retile_inum]
    change ((gs.flatMap Geom.mats).map Mat.inum).sum = _
    rw [this]
    exact (hmats.map _).sum_eq
  · exact retile_tiledVerts hin.pos hin.size hm (List.flatMap_def ..)
      (forall₂_map_self fun a ha => ⟨(hvi a ha).2.1, vertexData_length vs m a (hvi a ha)⟩)
  · exact retile_tiledIndex hm (congrArg OneOrMany.many (List.flatMap_def ..))
      (forall₂_map_self fun a ha => ⟨(hii a ha).2.1,
        block_length _ (hii a ha).1 (hii a ha).2.1 (hii a ha).2.2⟩)

/-- Applying the inverse order picks the geoms back in their old order. -/
theorem picked_back {R : Geom F → Geom F → Prop} {gs gs' : List (Geom F)} {order order' : List Int}
    {js js' : List Nat} (hp : Permutes gs.length order js) (hp' : Permutes gs.length order' js')
    (hinv : ∀ (k j : Nat), js'[k]? = some j → js[j]? = some k)
    (h : List.Forall₂ R (js.filterMap fun j => gs[j]?) gs') (hlen : gs'.length = gs.length) :
    List.Forall₂ R gs (js'.filterMap fun j => gs'[j]?) := by
  have hp'' : Permutes gs'.length order' js' := by rw [hlen]; exact hp'
  have hl' := (permutes_picked hp'').length_eq
  apply forall₂_of_getElem?
  · rw [hl', hlen]
  · intro k g g' hg hg'
    have hk : k < js'.length := by
      rw [hp'.perm.length_eq, List.length_range]
      exact (List.getElem?_eq_some_iff.1 hg).1
    have hkj : js'[k]? = some js'[k] := List.getElem?_eq_getElem hk
    have h1 := picked_getElem? hp (hinv k _ hkj) hg
    obtain ⟨g1, h2, h3⟩ := forall₂_getElem? h h1
    have h4 := picked_getElem? hp'' hkj h2
    rw [h4] at hg'
    simp only [Option.some.injEq] at hg'
    rw [← hg']
    exact h3

/-- A mesh with the geoms of `m` up to places, retiled, is `m`. -/
theorem restored {vs : Nat} {m m' : Mesh F} {ix : List Int} (hv : TiledVerts vs m)
    (hi : TiledIndex m) (_hix : m.index = .many ix)
    (hm : m' = { m with geoms := m'.geoms, vertices := m'.vertices, index := m'.index })
    (hk : List.Forall₂ (fun g g' : Geom F => g'.shape = g.shape ∧ List.Forall₂
      (fun a a' : Mat F => a' = { a with vstart := a'.vstart, istart := a'.istart }) g.mats g'.mats)
      m.geoms m'.geoms)
    (hmats : m'.mats = retile 0 0 m.mats) (hver : m'.vertices = m.vertices)
    (hind : m'.index = m.index) : m' = m := by
  have hsame : retile 0 0 m.mats = m.mats :=
    retile_tiled 0 0 (fun k a h => by rw [hv.start k a h, Int.zero_add])
      (fun k a h => by rw [hi.start k a h, Int.zero_add])
  have hg : m'.geoms = m.geoms := by
    apply geoms_ext
    · have : List.Forall₂ (fun g g' : Geom F => g'.shape = g.shape) m.geoms m'.geoms :=
        hk.imp fun g g' h => h.1
      have h2 : m'.geoms.map Geom.shape = m.geoms.map Geom.shape := by
        clear * - this
        generalize m.geoms = gs at this ⊢
        generalize m'.geoms = gs' at this ⊢
        induction this with
        | nil => rfl
        | cons h _ ih => rw [List.map_cons, List.map_cons, h, ih]
      exact h2
    · exact hmats.trans hsame
  rw [hm, hg, hver, hind]

/-- An id out of range ends the loop with an `IndexError`. -/
theorem reorderGeoms_bad {vs : Nat} {m : Mesh F} {ix : List Int} (hpos : 0 < vs)
    (hix : m.index = .many ix) (ids : List Int) (gs : List (Geom F)) (s : Arrays F)
    (bad : ∃ id ∈ ids, ∀ j, ¬ Names gs.length id j) :
    (reorderGeoms vs m gs s ids).err = some .indexError := by
  have hmat : ∀ (s : Arrays F) (ms : List (Mat F)), (trav (reorderMat vs m) s ms).2.2 = none := by
    intro s ms
    induction ms generalizing s with
    | nil => rfl
    | cons a as ih =>
      rw [trav]
      have : (reorderMat vs m s a).2.2 = none := by
        unfold reorderMat
        simp only [hix]
        rw [if_neg (by omega)]
      rcases h : reorderMat vs m s a with ⟨s', a', e⟩
      rw [h] at this
      simp only at this
      subst this
      simp only
      exact ih s'
  have hgeom : ∀ (s : Arrays F) (g : Geom F), (reorderGeom vs m s g).2.2 = none := by
    intro s g
    have h1 := (trav_geoms (reorderMat vs m) s [g]).1
    have h2 := hmat s ([g].flatMap Geom.mats)
    rw [← h1] at h2
    simp only at h2
    rw [reorderGeom_lift]
    rw [trav] at h2
    rcases h : geomLift (reorderMat vs m) s g with ⟨s', g', _ | e⟩
    · rfl
    · rw [h] at h2; simp at h2
  induction ids generalizing gs s with
  | nil => simp at bad
  | cons id ids ih =>
    rw [reorderGeoms]
    rcases hp : pyPos gs.length id with _ | j
    · rfl
    · simp only
      have hj := names_pyPos hp
      have hjl := hj.1
      rw [List.getElem?_eq_getElem hj.1]
      simp only
      have hg := hgeom s gs[j]
      rcases h : reorderGeom vs m s gs[j] with ⟨s', g', e⟩
      rw [h] at hg
      simp only at hg
      subst hg
      simp only
      refine ih _ _ ?_
      obtain ⟨b, hb, hbad⟩ := bad
      rcases List.mem_cons.1 hb with rfl | hb
      · exact absurd hj (hbad j)
      · exact ⟨b, hb, by simpa using hbad⟩

end Bf2
