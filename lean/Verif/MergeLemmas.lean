import Verif.ReorderLemmas

/-! # Lemmas about `canMerge` and `merge` -/

namespace Bf2

variable {F : Type}

/-! ## canMerge -/

theorem all2_true {α β : Type} {f : α → β → Except Err Bool} {l : List α} {r : List β}
    (hlen : l.length = r.length) :
    all2 f l r = .ok true ↔ List.Forall₂ (fun a b => f a b = .ok true) l r := by
  induction l generalizing r with
  | nil =>
    cases r with
    | nil => simp [all2]
    | cons => simp at hlen
  | cons a as ih =>
    cases r with
    | nil => simp at hlen
    | cons b bs =>
      rw [all2, List.forall₂_cons, ← ih (by simpa using hlen)]
      rcases f a b with e | (_ | _) <;> simp

theorem canMergeMat_true (a b : Mat F) : canMergeMat a b = .ok true ↔ MatAgree a b := by
  constructor
  · intro h
    unfold canMergeMat at h
    by_cases h1 : a.alphamode = b.alphamode
    · rw [if_neg (by simpa using h1)] at h
      by_cases h2 : a.fxfile = b.fxfile
      · rw [if_neg (by simpa using h2)] at h
        by_cases h3 : a.technique = b.technique
        · rw [if_neg (by simpa using h3)] at h
          by_cases h4 : a.maps = b.maps
          · exact ⟨h1, h2, h3, h4⟩
          · rw [if_pos h4] at h; simp at h
        · rw [if_pos h3] at h; simp at h
      · rw [if_pos h2] at h; simp at h
    · rw [if_pos h1] at h
      split at h <;> simp at h
  · rintro ⟨h1, h2, h3, h4⟩
    simp [canMergeMat, h1, h2, h3, h4]

theorem all2_len {α β : Type} {f : α → β → Except Err Bool} {l : List α} {r : List β} :
    (if l.length ≠ r.length then .ok false else all2 f l r) = (.ok true : Except Err Bool) ↔
      List.Forall₂ (fun a b => f a b = .ok true) l r := by
  by_cases h : l.length = r.length
  · rw [if_neg (by simpa using h), all2_true h]
  · rw [if_pos h]
    constructor
    · intro h'; simp at h'
    · intro h'; exact absurd h'.length_eq h

theorem canMergeLod_true (a b : Lod F) : canMergeLod a b = .ok true ↔
    List.Forall₂ MatAgree a.materials b.materials := by
  unfold canMergeLod
  rw [all2_len]
  simp only [canMergeMat_true]

theorem canMergeGeom_true (a b : Geom F) : canMergeGeom a b = .ok true ↔
    List.Forall₂ (fun l k : Lod F => List.Forall₂ MatAgree l.materials k.materials)
      a.lods b.lods := by
  unfold canMergeGeom
  rw [all2_len]
  simp only [canMergeLod_true]

theorem canMergeAttr_true (a b : VAttr) : canMergeAttr a b = .ok true ↔ a = b := by
  unfold canMergeAttr
  by_cases h : a = b
  · simp [h]
  · rw [if_neg h]
    constructor
    · intro h'
      split at h'
      · simp at h'
      · split at h' <;> simp at h'
    · intro h'; exact absurd h' h

theorem canMerge_true (m o : Mesh F) : canMerge m o = .ok true ↔ Compatible m o := by
  have hg : (if m.geoms.length ≠ o.geoms.length then .ok false else
      all2 canMergeGeom m.geoms o.geoms) = (.ok true : Except Err Bool) ↔ _ :=
    all2_len (f := canMergeGeom) (l := m.geoms) (r := o.geoms)
  have ha : (if m.vattrs.length ≠ o.vattrs.length then .ok false else
      all2 canMergeAttr m.vattrs o.vattrs) = (.ok true : Except Err Bool) ↔ _ :=
    all2_len (f := canMergeAttr) (l := m.vattrs) (r := o.vattrs)
  simp only [canMergeGeom_true] at hg
  simp only [canMergeAttr_true, List.forall₂_eq_eq_eq] at ha
  constructor
  · intro h
    unfold canMerge at h
    by_cases hl : m.geoms.length = o.geoms.length
    · rw [if_neg (by simpa using hl)] at h hg
      rcases hr : all2 canMergeGeom m.geoms o.geoms with e | (_ | _)
      · rw [hr] at h; simp at h
      · rw [hr] at h; simp at h
      · rw [hr] at h
        exact ⟨hg.1 hr, ha.1 h⟩
    · rw [if_pos hl] at h; simp at h
  · rintro ⟨h1, h2⟩
    have h1' := hg.2 h1
    unfold canMerge
    have hl := h1.length_eq
    rw [if_neg (by simpa using hl)] at h1' ⊢
    rw [h1']
    exact ha.2 h2

theorem Compatible.mats_length {m o : Mesh F} (h : Compatible m o) :
    m.mats.length = o.mats.length := by
  have : List.Forall₂ MatAgree m.mats o.mats :=
    forall₂_flatten (h.geoms.imp fun g k hg => forall₂_flatten hg)
  exact this.length_eq

/-! ## Loops over two meshes -/

theorem trav2_append {σ α β : Type} (f : σ → α → β → σ × α × Option Err) (s : σ) (l r : List α)
    (l2 r2 : List β) (h : l.length = l2.length) :
    trav2 f s (l ++ r) (l2 ++ r2) = match trav2 f s l l2 with
      | (s', l', some e) => (s', l' ++ r, some e)
      | (s', l', none) => match trav2 f s' r r2 with
        | (s'', r', e) => (s'', l' ++ r', e) := by
  induction l generalizing s l2 with
  | nil =>
    cases l2 with
    | nil => rfl
    | cons => simp at h
  | cons a as ih =>
    cases l2 with
    | nil => simp at h
    | cons b bs =>
      rw [List.cons_append, List.cons_append, trav2, trav2]
      rcases f s a b with ⟨s', a', _ | e⟩
      · simp only [ih s' bs (by simpa using h)]
        rcases trav2 f s' as bs with ⟨s'', as', _ | e⟩ <;> rfl
      · rfl

theorem trav2_flat {σ α β γ δ : Type} (get : γ → List α) (get2 : δ → List β)
    (f : σ → α → β → σ × α × Option Err) (g : σ → γ → δ → σ × γ × Option Err)
    (rel : γ → δ → Prop) (hlen : ∀ c d, rel c d → (get c).length = (get2 d).length)
    (h : ∀ s c d, rel c d →
      ((g s c d).1, get (g s c d).2.1, (g s c d).2.2) = trav2 f s (get c) (get2 d)) (s : σ)
    (cs : List γ) (ds : List δ) (hr : List.Forall₂ rel cs ds) :
    ((trav2 g s cs ds).1, (trav2 g s cs ds).2.1.flatMap get, (trav2 g s cs ds).2.2) =
      trav2 f s (cs.flatMap get) (ds.flatMap get2) := by
  induction hr generalizing s with
  | nil => rfl
  | @cons c d cs ds hcd _ ih =>
    rw [List.flatMap_cons, List.flatMap_cons, trav2_append f s _ _ _ _ (hlen c d hcd),
      ← h s c d hcd, trav2]
    rcases g s c d with ⟨s', c', _ | e⟩
    · simp only
      rw [← ih s']
      rfl
    · rfl

theorem trav2_length {σ α β : Type} (f : σ → α → β → σ × α × Option Err) (s : σ) (l : List α)
    (r : List β) : (trav2 f s l r).2.1.length = l.length := by
  induction l generalizing s r with
  | nil => rfl
  | cons a as ih =>
    cases r with
    | nil => rfl
    | cons b bs =>
      rw [trav2]
      rcases f s a b with ⟨s', a', _ | e⟩
      · simp [ih]
      · simp

theorem trav2_map {σ α β γ : Type} (f : σ → α → β → σ × α × Option Err) (g : α → γ)
    (h : ∀ s a b, g (f s a b).2.1 = g a) (s : σ) (l : List α) (r : List β) :
    (trav2 f s l r).2.1.map g = l.map g := by
  induction l generalizing s r with
  | nil => rfl
  | cons a as ih =>
    cases r with
    | nil => rfl
    | cons b bs =>
      have ha := h s a b
      rw [trav2]
      rcases hf : f s a b with ⟨s', a', _ | e⟩
      · rw [hf] at ha; simp only [List.map_cons, ih, ← ha]
      · rw [hf] at ha; simp only [List.map_cons, ← ha]

/-- The loop of `merge` as a loop over the materials of both meshes. -/
theorem trav2_geoms {m o : Mesh F} (h : Compatible m o) (s : MergeSt F) :
    ((trav2 (mergeGeom m o) s m.geoms o.geoms).1,
      (trav2 (mergeGeom m o) s m.geoms o.geoms).2.1.flatMap Geom.mats,
      (trav2 (mergeGeom m o) s m.geoms o.geoms).2.2) = trav2 (mergeMat m o) s m.mats o.mats ∧
    (trav2 (mergeGeom m o) s m.geoms o.geoms).2.1.map Geom.shape = m.geoms.map Geom.shape := by
  have hlod : ∀ (s : MergeSt F) (ls ks : List (Lod F)),
      List.Forall₂ (fun l k : Lod F => List.Forall₂ MatAgree l.materials k.materials) ls ks → _ :=
    fun s ls ks hr => trav2_flat Lod.materials Lod.materials (mergeMat m o) (mergeLod m o)
      (fun l k => List.Forall₂ MatAgree l.materials k.materials) (fun _ _ h => h.length_eq)
      (fun s l k _ => rfl) s ls ks hr
  have hshape : ∀ (s : MergeSt F) (ls ks : List (Lod F)), _ := fun s ls ks =>
    trav2_map (mergeLod m o) Lod.shape (fun s l k => by
      simp only [mergeLod, Lod.shape, trav2_length]) s ls ks
  constructor
  · exact trav2_flat Geom.mats Geom.mats (mergeMat m o) (mergeGeom m o)
      (fun g k => List.Forall₂ (fun l k : Lod F => List.Forall₂ MatAgree l.materials k.materials)
        g.lods k.lods) (fun g k h => (forall₂_flatten h).length_eq)
      (fun s g k hr => hlod s g.lods k.lods hr) s m.geoms o.geoms h.geoms
  · refine trav2_map (mergeGeom m o) Geom.shape (fun s g k => ?_) s m.geoms o.geoms
    rw [geom_shape, geom_shape]
    simp only [mergeGeom]
    rw [hshape]

/-! ## Shifting indices -/

theorem flatMapE_map {α β γ : Type} (f : α → Except Err (List β)) (g : γ → α) (l : List γ) :
    flatMapE f (l.map g) = flatMapE (fun c => f (g c)) l := by
  induction l with
  | nil => rfl
  | cons c cs ih => rw [List.map_cons, flatMapE, flatMapE, ih]

theorem flatMapE_range {α β : Type} (f : Nat → Except Err (List β)) (g : α → Except Err (List β))
    (d : List α) (h : ∀ (i : Nat) v, d[i]? = some v → f i = g v) :
    flatMapE f (List.range d.length) = flatMapE g d := by
  induction d generalizing f with
  | nil => rfl
  | cons v d ih =>
    rw [List.length_cons, List.range_succ_eq_map, flatMapE, flatMapE, flatMapE_map,
      ih (fun i => f (i + 1)) (fun i w hw => h (i + 1) w (by simpa using hw)),
      h 0 v (by simp)]

theorem shiftIndex_eq {o : Mesh F} {ix : List Int} (hix : o.index = .many ix) {b : Mat F}
    (hb : IndexInside o b) (n : Int) :
    flatMapE (shiftIndex o.index b.istart n) (List.range b.inum.toNat) =
      flatMapE (fun v => if 65535 < v + n then .error .overflowError else .ok [v + n])
        (indexData o b) := by
  have hl : (indexData o b).length = b.inum.toNat := block_length _ hb.1 hb.2.1 hb.2.2
  rw [← hl]
  apply flatMapE_range
  intro i v hv
  have hi : i < b.inum.toNat := by
    rw [← hl]; exact (List.getElem?_eq_some_iff.1 hv).1
  have h0 := hb.1
  have h2 := hb.2.2
  rw [hix] at h2
  simp only [OneOrMany.elems] at h2
  have hn : Names ix.length (b.istart + i) (b.istart.toNat + i) :=
    ⟨by omega, Or.inl (by omega)⟩
  unfold indexData block at hv
  rw [List.getElem?_take_of_lt hi, List.getElem?_drop, hix] at hv
  unfold shiftIndex pyGet
  rw [hix]
  simp only [pyPos_names hn]
  simp only [OneOrMany.elems] at hv
  rw [hv]

theorem shift_ok {d : List Int} {n : Int} (h : ∀ v ∈ d, v + n ≤ 65535) :
    flatMapE (fun v => if 65535 < v + n then .error .overflowError else .ok [v + n]) d =
      .ok (d.map (· + n)) := by
  rw [flatMapE_ok _ (fun v => [v + n]) d fun v hv => by rw [if_neg (by have := h v hv; omega)]]
  congr 1
  induction d with
  | nil => rfl
  | cons a as ih => rw [List.flatMap_cons, List.map_cons, ih fun v hv => h v (by simp [hv])]; rfl

theorem shift_overflow {d : List Int} {n : Int} (h : ∃ v ∈ d, 65535 < v + n) :
    flatMapE (fun v => if 65535 < v + n then .error .overflowError else .ok [v + n]) d =
      .error .overflowError := by
  induction d with
  | nil => simp at h
  | cons a as ih =>
    rw [flatMapE]
    by_cases ha : 65535 < a + n
    · rw [if_pos ha]
    · rw [if_neg ha]
      obtain ⟨v, hv, h1⟩ := h
      rcases List.mem_cons.1 hv with rfl | hv
      · exact absurd h1 ha
      · rw [ih ⟨v, hv, h1⟩]

/-! ## One merge -/

/-- Counts of two materials added. -/
def addCounts (a b : Mat F) : Mat F := { a with vnum := a.vnum + b.vnum, inum := a.inum + b.inum }

/-- Vertex data of two materials. -/
def pairVerts (vs : Nat) (m o : Mesh F) (a b : Mat F) : List F :=
  vertexData vs m a ++ vertexData vs o b

/-- Indices of two materials. -/
def pairIndex (m o : Mesh F) (a b : Mat F) : List Int :=
  indexData m a ++ (indexData o b).map (· + a.vnum)

theorem mergeMat_eq {vs : Nat} {m o : Mesh F} {ix ox : List Int} (hm : VertexSize m.vattrs vs)
    (ho : VertexSize o.vattrs vs) (hix : m.index = .many ix) (hox : o.index = .many ox)
    (s : MergeSt F) {a b : Mat F} (hva : VertsInside vs m a) (hia : IndexInside m a)
    (hvb : VertsInside vs o b) (hib : IndexInside o b) :
    ((∀ v ∈ indexData o b, v + a.vnum ≤ 65535) → mergeMat m o s a b =
      (⟨s.vertices ++ pairVerts vs m o a b, s.index ++ pairIndex m o a b,
        s.vstart + (a.vnum + b.vnum), s.istart + (a.inum + b.inum),
        s.vertnum + (a.vnum + b.vnum), s.indexnum + (a.inum + b.inum)⟩,
        { addCounts a b with vstart := s.vstart, istart := s.istart }, none)) ∧
    ((∃ v ∈ indexData o b, 65535 < v + a.vnum) →
      mergeMat m o s a b = (s, a, some .overflowError)) := by
  have hsl : pySlice ix a.istart (a.istart + a.inum) = indexData m a := by
    rw [pySlice_block ix hia.1 hia.2.1]
    unfold indexData; rw [hix]; rfl
  constructor
  · intro h
    unfold mergeMat
    rw [(vertexSize_iff _ _).2 hm, hix, (vertexSize_iff _ _).2 ho]
    simp only
    rw [shiftIndex_eq hox hib, shift_ok h]
    simp only [matVertices_eq vs m a hva, matVertices_eq vs o b hvb, hsl, pairVerts, pairIndex,
      List.append_assoc, addCounts]
  · intro h
    unfold mergeMat
    rw [(vertexSize_iff _ _).2 hm, hix, (vertexSize_iff _ _).2 ho]
    simp only
    rw [shiftIndex_eq hox hib, shift_overflow h]

theorem mergeMats_eq {vs : Nat} {m o : Mesh F} {ix ox : List Int} (hm : VertexSize m.vattrs vs)
    (ho : VertexSize o.vattrs vs) (hix : m.index = .many ix) (hox : o.index = .many ox)
    (s : MergeSt F) (as bs : List (Mat F)) (hlen : as.length = bs.length)
    (hva : ∀ a ∈ as, VertsInside vs m a) (hia : ∀ a ∈ as, IndexInside m a)
    (hvb : ∀ b ∈ bs, VertsInside vs o b) (hib : ∀ b ∈ bs, IndexInside o b)
    (hno : ∀ (i : Nat) a b v, as[i]? = some a → bs[i]? = some b → v ∈ indexData o b →
      v + a.vnum ≤ 65535) :
    trav2 (mergeMat m o) s as bs =
      (⟨s.vertices ++ (List.zipWith (pairVerts vs m o) as bs).flatten,
        s.index ++ (List.zipWith (pairIndex m o) as bs).flatten,
        s.vstart + ((List.zipWith addCounts as bs).map Mat.vnum).sum,
        s.istart + ((List.zipWith addCounts as bs).map Mat.inum).sum,
        s.vertnum + ((List.zipWith addCounts as bs).map Mat.vnum).sum,
        s.indexnum + ((List.zipWith addCounts as bs).map Mat.inum).sum⟩,
        retile s.vstart s.istart (List.zipWith addCounts as bs), none) := by
  induction as generalizing s bs with
  | nil => simp [trav2, retile]
  | cons a as ih =>
    cases bs with
    | nil => simp at hlen
    | cons b bs =>
      rw [trav2, (mergeMat_eq hm ho hix hox s (hva a (by simp)) (hia a (by simp)) (hvb b (by simp))
        (hib b (by simp))).1 fun v hv => hno 0 a b v rfl rfl hv]
      simp only
      rw [ih _ bs (by simpa using hlen) (fun a ha => hva a (by simp [ha]))
        (fun a ha => hia a (by simp [ha])) (fun a ha => hvb a (by simp [ha]))
        (fun a ha => hib a (by simp [ha])) fun i a b v h1 h2 h3 =>
          hno (i + 1) a b v (by simpa using h1) (by simpa using h2) h3]
      simp only [List.zipWith_cons_cons, List.flatten_cons, List.map_cons, List.sum_cons, retile,
        addCounts, List.append_assoc, Int.add_assoc]

theorem mergeMats_overflow {vs : Nat} {m o : Mesh F} {ix ox : List Int}
    (hm : VertexSize m.vattrs vs)
    (ho : VertexSize o.vattrs vs) (hix : m.index = .many ix) (hox : o.index = .many ox)
    (s : MergeSt F) (as bs : List (Mat F)) (hlen : as.length = bs.length)
    (hva : ∀ a ∈ as, VertsInside vs m a) (hia : ∀ a ∈ as, IndexInside m a)
    (hvb : ∀ b ∈ bs, VertsInside vs o b) (hib : ∀ b ∈ bs, IndexInside o b)
    (hno : ∃ (i : Nat) (a b : Mat F) (v : Int), as[i]? = some a ∧ bs[i]? = some b ∧
      v ∈ indexData o b ∧ 65535 < v + a.vnum) :
    (trav2 (mergeMat m o) s as bs).2.2 = some .overflowError := by
  induction as generalizing s bs with
  | nil => simp at hno
  | cons a as ih =>
    cases bs with
    | nil => simp at hlen
    | cons b bs =>
      have hstep := mergeMat_eq hm ho hix hox s (hva a (by simp)) (hia a (by simp)) (hvb b (by simp))
        (hib b (by simp))
      rw [trav2]
      by_cases h : ∃ v ∈ indexData o b, 65535 < v + a.vnum
      · rw [hstep.2 h]
      · rw [hstep.1 fun v hv => by
          by_contra hc
          exact h ⟨v, hv, by omega⟩]
        simp only
        apply ih _ bs (by simpa using hlen) (fun a ha => hva a (by simp [ha]))
          (fun a ha => hia a (by simp [ha])) (fun a ha => hvb a (by simp [ha]))
          (fun a ha => hib a (by simp [ha]))
        obtain ⟨i, a', b', v, h1, h2, h3, h4⟩ := hno
        cases i with
        | zero =>
          simp only [List.getElem?_cons_zero, Option.some.injEq] at h1 h2
          subst h1 h2
          exact absurd ⟨v, h3, h4⟩ h
        | succ i => exact ⟨i, a', b', v, by simpa using h1, by simpa using h2, h3, h4⟩

/-- What a successful merge makes of `m`. -/
structure Merged (vs : Nat) (m o m' : Mesh F) : Prop where
  rest : m' = { m with
    geoms := m'.geoms, vertices := m'.vertices, index := m'.index, vertnum := m'.vertnum,
    indexnum := m'.indexnum }
  shape : m'.geoms.map Geom.shape = m.geoms.map Geom.shape
  mats : m'.mats = retile 0 0 (List.zipWith addCounts m.mats o.mats)
  vertices : m'.vertices = (List.zipWith (pairVerts vs m o) m.mats o.mats).flatten
  index : m'.index = .many (List.zipWith (pairIndex m o) m.mats o.mats).flatten
  vertnum : m'.vertnum = ((List.zipWith addCounts m.mats o.mats).map Mat.vnum).sum
  indexnum : m'.indexnum = ((List.zipWith addCounts m.mats o.mats).map Mat.inum).sum

theorem merge_ok {vs : Nat} {m o : Mesh F} {ix ox : List Int} (hc : Compatible m o)
    (hm : Inside vs m) (ho : Inside vs o) (hix : m.index = .many ix) (hox : o.index = .many ox)
    (hno : ¬ Overflows m o) : ∃ m', merge m o = (m', .ok .done) ∧ Merged vs m o m' := by
  have hflat := mergeMats_eq hm.size ho.size hix hox ⟨[], [], 0, 0, 0, 0⟩ m.mats o.mats
    hc.mats_length hm.verts hm.index ho.verts ho.index fun i a b v h1 h2 h3 => by
      by_contra hh
      exact hno ⟨i, a, b, v, h1, h2, h3, by omega⟩
  obtain ⟨h1, h2⟩ := trav2_geoms hc ⟨[], [], 0, 0, 0, 0⟩
  rw [hflat] at h1
  rcases ht : trav2 (mergeGeom m o) ⟨[], [], 0, 0, 0, 0⟩ m.geoms o.geoms with ⟨s, gs, e⟩
  rw [ht] at h1 h2
  simp only [Prod.mk.injEq, List.nil_append, Int.zero_add] at h1
  obtain ⟨rfl, hmats, rfl⟩ := h1
  refine ⟨{ m with
    geoms := gs
    vertices := (List.zipWith (pairVerts vs m o) m.mats o.mats).flatten
    index := .many (List.zipWith (pairIndex m o) m.mats o.mats).flatten
    vertnum := ((List.zipWith addCounts m.mats o.mats).map Mat.vnum).sum
    indexnum := ((List.zipWith addCounts m.mats o.mats).map Mat.inum).sum }, ?_,
    ⟨rfl, h2, hmats, rfl, rfl, rfl, rfl⟩⟩
  unfold merge
  rw [(canMerge_true m o).2 hc]
  simp only [ht]
  unfold mergeFinish
  rw [hix]

theorem merge_overflow {vs : Nat} {m o : Mesh F} {ix ox : List Int} (hc : Compatible m o)
    (hm : Inside vs m) (ho : Inside vs o) (hix : m.index = .many ix) (hox : o.index = .many ox)
    (hno : Overflows m o) : (merge m o).2 = .error .overflowError := by
  have hflat := mergeMats_overflow hm.size ho.size hix hox ⟨[], [], 0, 0, 0, 0⟩ m.mats o.mats
    hc.mats_length hm.verts hm.index ho.verts ho.index hno
  obtain ⟨h1, -⟩ := trav2_geoms hc ⟨[], [], 0, 0, 0, 0⟩
  rw [← h1] at hflat
  simp only at hflat
  unfold merge
  rw [(canMerge_true m o).2 hc]
  rcases ht : trav2 (mergeGeom m o) ⟨[], [], 0, 0, 0, 0⟩ m.geoms o.geoms with ⟨s, gs, e⟩
  rw [ht] at hflat
  simp only at hflat
  subst hflat
  rfl

/-- A merge that succeeds, in terms of its outcome. -/
theorem merge_done {vs : Nat} {m o m' : Mesh F} {ix ox : List Int}
    (hm : Inside vs m) (ho : Inside vs o) (hix : m.index = .many ix) (hox : o.index = .many ox)
    (h : merge m o = (m', .ok .done)) : Compatible m o ∧ ¬ Overflows m o ∧ Merged vs m o m' := by
  have hc : Compatible m o := by
    rw [← canMerge_true]
    unfold merge at h
    rcases hcm : canMerge m o with e | (_ | _)
    · rw [hcm] at h; simp at h
    · rw [hcm] at h; simp at h
    · rfl
  have hno : ¬ Overflows m o := by
    intro hno
    have := merge_overflow hc hm ho hix hox hno
    rw [h] at this
    simp at this
  obtain ⟨m1, h1, h2⟩ := merge_ok hc hm ho hix hox hno
  rw [h] at h1
  simp only [Prod.mk.injEq, and_true] at h1
  subst h1
  exact ⟨hc, hno, h2⟩

/-! ## What a merged mesh is like -/

theorem forall₂_zipWith {α β γ δ : Type} {R : γ → δ → Prop} {f : α → β → γ} {g : α → β → δ}
    (l : List α) (r : List β) (h : ∀ a ∈ l, ∀ b ∈ r, R (f a b) (g a b)) :
    List.Forall₂ R (List.zipWith f l r) (List.zipWith g l r) := by
  induction l generalizing r with
  | nil => exact .nil
  | cons a as ih =>
    cases r with
    | nil => exact .nil
    | cons b bs =>
      exact .cons (h a (by simp) b (by simp))
        (ih bs fun a ha b hb => h a (by simp [ha]) b (by simp [hb]))

theorem pairVerts_length {vs : Nat} {m o : Mesh F} {a b : Mat F} (ha : VertsInside vs m a)
    (hb : VertsInside vs o b) :
    0 ≤ (addCounts a b).vnum ∧
      (pairVerts vs m o a b).length = (addCounts a b).vnum.toNat * vs := by
  have h1 := ha.2.1
  have h2 := hb.2.1
  refine ⟨by simp only [addCounts]; omega, ?_⟩
  unfold pairVerts
  rw [List.length_append, vertexData_length _ _ _ ha, vertexData_length _ _ _ hb]
  simp only [addCounts]
  rw [Int.toNat_add h1 h2]
  ring

theorem indexData_length {m : Mesh F} {a : Mat F} (h : IndexInside m a) :
    (indexData m a).length = a.inum.toNat := block_length _ h.1 h.2.1 h.2.2

theorem pairIndex_length {m o : Mesh F} {a b : Mat F} (ha : IndexInside m a)
    (hb : IndexInside o b) :
    0 ≤ (addCounts a b).inum ∧ (pairIndex m o a b).length = (addCounts a b).inum.toNat := by
  have h1 := ha.2.1
  have h2 := hb.2.1
  refine ⟨by simp only [addCounts]; omega, ?_⟩
  unfold pairIndex
  rw [List.length_append, List.length_map, indexData_length ha, indexData_length hb]
  simp only [addCounts]
  rw [Int.toNat_add h1 h2]

theorem Merged.tiled {vs : Nat} {m o m' : Mesh F} (h : Merged vs m o m') (hm : Inside vs m)
    (ho : Inside vs o) : TiledVerts vs m' ∧ TiledIndex m' := by
  constructor
  · refine retile_tiledVerts hm.pos (by rw [h.rest]; exact hm.size) h.mats h.vertices ?_
    exact forall₂_zipWith _ _ fun a ha b hb => pairVerts_length (hm.verts a ha) (ho.verts b hb)
  · refine retile_tiledIndex h.mats h.index ?_
    exact forall₂_zipWith _ _ fun a ha b hb => pairIndex_length (hm.index a ha) (ho.index b hb)

theorem Merged.mat {vs : Nat} {m o m' : Mesh F} (h : Merged vs m o m') (hm : Inside vs m)
    (ho : Inside vs o) {i : Nat} {a b : Mat F} (ha : m.mats[i]? = some a)
    (hb : o.mats[i]? = some b) : ∃ a', m'.mats[i]? = some a' ∧ MatMerged vs m o m' a b a' := by
  have hz : (List.zipWith addCounts m.mats o.mats)[i]? = some (addCounts a b) := by
    rw [List.getElem?_zipWith, ha, hb]
  have ha' : m'.mats[i]? = some { addCounts a b with
      vstart := 0 + (((List.zipWith addCounts m.mats o.mats).take i).map Mat.vnum).sum
      istart := 0 + (((List.zipWith addCounts m.mats o.mats).take i).map Mat.inum).sum } := by
    rw [h.mats, retile_getElem?, hz]
    rfl
  obtain ⟨h1, h2⟩ := retile_data h.mats h.vertices h.index
    (forall₂_zipWith _ _ fun a ha b hb => pairVerts_length (hm.verts a ha) (ho.verts b hb))
    (forall₂_zipWith _ _ fun a ha b hb => pairIndex_length (hm.index a ha) (ho.index b hb))
    ha' (d := pairVerts vs m o a b) (e := pairIndex m o a b)
    (by rw [List.getElem?_zipWith, ha, hb]) (by rw [List.getElem?_zipWith, ha, hb])
  exact ⟨_, ha', ⟨rfl, h1, h2⟩⟩

/-! ## When `canMerge` raises -/

theorem all2_first {α β : Type} {f : α → β → Except Err Bool} {pre : List α} {pre' : List β}
    {a : α} {b : β} {post : List α} {post' : List β} {r : Except Err Bool}
    (h : List.Forall₂ (fun a b => f a b = .ok true) pre pre') (hr : f a b = r)
    (hne : r ≠ .ok true) : all2 f (pre ++ a :: post) (pre' ++ b :: post') = r := by
  induction h with
  | nil =>
    rw [List.nil_append, List.nil_append, all2, hr]
    rcases r with e | (_ | _)
    · rfl
    · rfl
    · exact absurd rfl hne
  | cons hab _ ih =>
    rw [List.cons_append, List.cons_append, all2, hab]
    exact ih

theorem all2_append {α β : Type} (f : α → β → Except Err Bool) (l r : List α) (l' r' : List β)
    (h : l.length = l'.length) :
    all2 f (l ++ r) (l' ++ r') = match all2 f l l' with
      | .error e => .error e
      | .ok false => .ok false
      | .ok true => all2 f r r' := by
  induction l generalizing l' with
  | nil =>
    cases l' with
    | nil => rfl
    | cons => simp at h
  | cons a as ih =>
    cases l' with
    | nil => simp at h
    | cons b bs =>
      rw [List.cons_append, List.cons_append, all2, all2]
      rcases f a b with e | (_ | _)
      · rfl
      · rfl
      · exact ih bs (by simpa using h)

theorem all2_flat {α β γ δ : Type} (get : γ → List α) (get2 : δ → List β)
    (f : α → β → Except Err Bool) (g : γ → δ → Except Err Bool) (rel : γ → δ → Prop)
    (hlen : ∀ c d, rel c d → (get c).length = (get2 d).length)
    (h : ∀ c d, rel c d → g c d = all2 f (get c) (get2 d)) (cs : List γ) (ds : List δ)
    (hr : List.Forall₂ rel cs ds) : all2 g cs ds = all2 f (cs.flatMap get) (ds.flatMap get2) := by
  induction hr with
  | nil => rfl
  | @cons c d cs ds hcd _ ih =>
    rw [List.flatMap_cons, List.flatMap_cons, all2_append f _ _ _ _ (hlen c d hcd), all2,
      h c d hcd, ih]
    rcases all2 f (get c) (get2 d) with e | (_ | _) <;> rfl

theorem sameCounts_lods {ls ks : List (Lod F)}
    (h : List.Forall₂ (fun l k : Lod F => l.materials.length = k.materials.length) ls ks) :
    (ls.flatMap Lod.materials).length = (ks.flatMap Lod.materials).length := by
  induction h with
  | nil => rfl
  | cons hab _ ih => simp only [List.flatMap_cons, List.length_append, hab, ih]

/-- On meshes of the same structure the materials are compared as one flat list. -/
theorem canMerge_flat {m o : Mesh F} (h : SameCounts m o) :
    (if m.geoms.length ≠ o.geoms.length then .ok false else all2 canMergeGeom m.geoms o.geoms) =
      all2 canMergeMat m.mats o.mats := by
  rw [if_neg (by simpa using h.length_eq)]
  refine all2_flat Geom.mats Geom.mats canMergeMat canMergeGeom
    (fun g k => List.Forall₂ (fun l k : Lod F => l.materials.length = k.materials.length)
      g.lods k.lods) (fun g k h => sameCounts_lods h) (fun g k h => ?_) m.geoms o.geoms h
  unfold canMergeGeom
  rw [if_neg (by simpa using h.length_eq)]
  refine all2_flat Lod.materials Lod.materials canMergeMat canMergeLod
    (fun l k => l.materials.length = k.materials.length) (fun _ _ h => h) (fun l k h => ?_) _ _ h
  unfold canMergeLod
  rw [if_neg (by simpa using h)]

theorem canMerge_geoms {m o : Mesh F} {r : Except Err Bool}
    (h : (if m.geoms.length ≠ o.geoms.length then .ok false
      else all2 canMergeGeom m.geoms o.geoms) = r) (hne : r ≠ .ok true) : canMerge m o = r := by
  unfold canMerge
  by_cases hl : m.geoms.length = o.geoms.length
  · rw [if_neg (by simpa using hl)] at h ⊢
    rw [h]
    rcases r with e | (_ | _)
    · rfl
    · rfl
    · exact absurd rfl hne
  · rw [if_pos hl] at h ⊢
    exact h

/-! ## Merging with itself -/

theorem trav2_self {σ α : Type} {f : σ → α → α → σ × α × Option Err} {g : σ → α → σ × α × Option Err}
    (h : ∀ s a, f s a a = g s a) (s : σ) (l : List α) : trav2 f s l l = trav g s l := by
  induction l generalizing s with
  | nil => rfl
  | cons a as ih =>
    rw [trav2, trav, h]
    rcases g s a with ⟨s', a', _ | e⟩
    · simp only [ih]
    · rfl

theorem mergeMat_self (m : Mesh F) (s : MergeSt F) (a : Mat F) :
    mergeMat m m s a a = mergeMatSelf m s a := by
  unfold mergeMat mergeMatSelf
  rcases vertexSize m.vattrs with e | vs
  · rfl
  · rcases m.index with x | ix
    · rfl
    · rfl

theorem mergeGeom_self (m : Mesh F) (s : MergeSt F) (g : Geom F) :
    mergeGeom m m s g g = mergeGeomSelf m s g := by
  have hlod : ∀ (s : MergeSt F) (l : Lod F), mergeLod m m s l l = mergeLodSelf m s l := by
    intro s l
    unfold mergeLod mergeLodSelf
    rw [trav2_self (mergeMat_self m)]
  unfold mergeGeom mergeGeomSelf
  rw [trav2_self hlod]

/-! ## Associativity -/

theorem getElem?_lt {α : Type} {l : List α} {i n : Nat} (hl : l.length = n) (h : i < n) :
    ∃ a, l[i]? = some a := ⟨l[i]'(by omega), List.getElem?_eq_getElem _⟩

theorem zipWith_ext {α β γ δ ε : Type} {f : α → β → γ} {g : δ → ε → γ} {as : List α} {bs : List β}
    {cs : List δ} {ds : List ε} (n : Nat) (ha : as.length = n) (hb : bs.length = n)
    (hc : cs.length = n) (hd : ds.length = n)
    (h : ∀ (i : Nat) a b c d, as[i]? = some a → bs[i]? = some b → cs[i]? = some c →
      ds[i]? = some d → f a b = g c d) : List.zipWith f as bs = List.zipWith g cs ds := by
  apply List.ext_getElem
  · simp [ha, hb, hc, hd]
  · intro i h1 h2
    have hi : i < n := by simp [ha, hb] at h1; exact h1
    rw [List.getElem_zipWith, List.getElem_zipWith]
    exact h i _ _ _ _ (List.getElem?_eq_getElem _) (List.getElem?_eq_getElem _)
      (List.getElem?_eq_getElem _) (List.getElem?_eq_getElem _)

theorem Merged.length {vs : Nat} {m o m' : Mesh F} (h : Merged vs m o m') (hc : Compatible m o) :
    m'.mats.length = m.mats.length := by
  rw [h.mats, retile_length, List.length_zipWith, hc.mats_length]; simp

theorem merged_assoc {vs : Nat} {a b c ab bc x y : Mesh F} (ha : Inside vs a) (hb : Inside vs b)
    (hc : Inside vs c) (hab : Compatible a b) (hbc : Compatible b c)
    (h1 : Merged vs a b ab) (h2 : Merged vs b c bc) (h3 : Merged vs ab c x) (h4 : Merged vs a bc y) :
    x = y := by
  obtain ⟨n, hn⟩ : ∃ n, a.mats.length = n := ⟨_, rfl⟩
  have hnb : b.mats.length = n := by rw [← hab.mats_length, hn]
  have hnc : c.mats.length = n := by rw [← hbc.mats_length, hnb]
  have hnab : ab.mats.length = n := by rw [h1.length hab, hn]
  have hnbc : bc.mats.length = n := by rw [h2.length hbc, hnb]
  have key : ∀ (i : Nat) p q r s, ab.mats[i]? = some p → c.mats[i]? = some q →
      a.mats[i]? = some r → bc.mats[i]? = some s → ∃ u, b.mats[i]? = some u ∧
        MatMerged vs a b ab r u p ∧ MatMerged vs b c bc u q s := by
    intro i p q r s hp hq hr hs
    obtain ⟨u, hu⟩ := getElem?_lt hnb (i := i) (by
      rw [← hn]; exact (List.getElem?_eq_some_iff.1 hr).1)
    obtain ⟨p', hp', hm1⟩ := h1.mat ha hb hr hu
    obtain ⟨s', hs', hm2⟩ := h2.mat hb hc hu hq
    rw [hp] at hp'; rw [hs] at hs'
    simp only [Option.some.injEq] at hp' hs'
    subst hp' hs'
    exact ⟨u, hu, hm1, hm2⟩
  have hmats : retile 0 0 (List.zipWith addCounts ab.mats c.mats) =
      retile 0 0 (List.zipWith addCounts a.mats bc.mats) := by
    apply retile_congr
    apply forall₂_of_getElem?
    · simp [hn, hnc, hnab, hnbc]
    · intro i p q hp hq
      rw [List.getElem?_zipWith] at hp hq
      have hi : i < n := by
        by_contra hi
        rw [List.getElem?_eq_none (by omega)] at hp
        simp at hp
      obtain ⟨r, hr⟩ := getElem?_lt hn hi
      obtain ⟨s, hs⟩ := getElem?_lt hnbc hi
      obtain ⟨t, ht⟩ := getElem?_lt hnab hi
      obtain ⟨w, hw⟩ := getElem?_lt hnc hi
      rw [hr, hs] at hp
      rw [ht, hw] at hq
      simp only [Option.some.injEq] at hp hq
      subst hp hq
      obtain ⟨u, -, e1, e2⟩ := key i t w r s ht hw hr hs
      have f1 := e1.fields
      have f2 := e2.fields
      rw [f1, f2]
      simp only [addCounts, Int.add_assoc]
  have hverts : List.zipWith (pairVerts vs ab c) ab.mats c.mats =
      List.zipWith (pairVerts vs a bc) a.mats bc.mats := by
    refine zipWith_ext n hnab hnc hn hnbc fun i p q r s hp hq hr hs => ?_
    obtain ⟨u, -, e1, e2⟩ := key i p q r s hp hq hr hs
    unfold pairVerts
    rw [e1.verts, e2.verts, List.append_assoc]
  have hindex : List.zipWith (pairIndex ab c) ab.mats c.mats =
      List.zipWith (pairIndex a bc) a.mats bc.mats := by
    refine zipWith_ext n hnab hnc hn hnbc fun i p q r s hp hq hr hs => ?_
    obtain ⟨u, -, e1, e2⟩ := key i p q r s hp hq hr hs
    unfold pairIndex
    have f1 := congrArg Mat.vnum e1.fields
    simp only at f1
    rw [e1.index, e2.index, f1, List.append_assoc, List.map_append, List.map_map]
    congr 3
    funext v
    simp only [Function.comp]
    ring
  have hnum : (List.zipWith addCounts ab.mats c.mats).map Mat.vnum =
      (List.zipWith addCounts a.mats bc.mats).map Mat.vnum := by
    rw [← retile_vnum 0 0, hmats, retile_vnum]
  have hinum : (List.zipWith addCounts ab.mats c.mats).map Mat.inum =
      (List.zipWith addCounts a.mats bc.mats).map Mat.inum := by
    rw [← retile_inum 0 0, hmats, retile_inum]
  have hg : x.geoms = y.geoms := by
    apply geoms_ext
    · rw [h3.shape, h1.shape, h4.shape]
    · exact h3.mats.trans (hmats.trans h4.mats.symm)
  rw [h3.rest, h4.rest, hg, h3.vertices, h4.vertices, hverts, h3.index, h4.index, hindex,
    h3.vertnum, h4.vertnum, hnum, h3.indexnum, h4.indexnum, hinum, h1.rest]

/-! ## Merging and translating -/

theorem movedAll_drop [FArith F] {vs o : Nat} {d : List F} (l : List F) (k : Nat) (h : vs ∣ k) :
    (movedAll vs o d l).drop k = movedAll vs o d (l.drop k) := by
  by_cases hk : k ≤ l.length
  · conv_lhs => rw [← List.take_append_drop k l]
    rw [movedAll_append _ _ (by rw [List.length_take, Nat.min_eq_left hk]; exact h)]
    apply List.drop_left'
    rw [movedAll_length, List.length_take, Nat.min_eq_left hk]
  · rw [List.drop_of_length_le (by rw [movedAll_length]; omega),
      List.drop_of_length_le (by omega)]
    rfl

theorem movedAll_take [FArith F] {vs o : Nat} {d : List F} (l : List F) (k : Nat) (h : vs ∣ k) :
    (movedAll vs o d l).take k = movedAll vs o d (l.take k) := by
  by_cases hk : k ≤ l.length
  · conv_lhs => rw [← List.take_append_drop k l]
    rw [movedAll_append _ _ (by rw [List.length_take, Nat.min_eq_left hk]; exact h)]
    apply List.take_left'
    rw [movedAll_length, List.length_take, Nat.min_eq_left hk]
  · rw [List.take_of_length_le (by rw [movedAll_length]; omega), List.take_of_length_le (by omega)]

theorem movedAll_flatten [FArith F] {vs o : Nat} {d : List F} (ls : List (List F))
    (h : ∀ l ∈ ls, vs ∣ l.length) :
    movedAll vs o d ls.flatten = (ls.map (movedAll vs o d)).flatten := by
  induction ls with
  | nil => rfl
  | cons l ls ih =>
    rw [List.flatten_cons, movedAll_append _ _ (h l (by simp)), List.map_cons, List.flatten_cons,
      ih fun l hl => h l (by simp [hl])]

theorem vertexData_moved [FArith F] {vs o : Nat} {d : List F} {m : Mesh F} {a : Mat F}
    (h : VertsInside vs m a) :
    vertexData vs { m with vertices := movedAll vs o d m.vertices } a =
      movedAll vs o d (vertexData vs m a) := by
  unfold vertexData block
  have h1 : vs ∣ (a.vstart * vs).toNat := by
    rw [Int.toNat_mul h.1 (by omega)]; exact Nat.dvd_mul_left _ _
  have h2 : vs ∣ (a.vnum * vs).toNat := by
    rw [Int.toNat_mul h.2.1 (by omega)]; exact Nat.dvd_mul_left _ _
  rw [movedAll_drop _ _ h1, movedAll_take _ _ h2]

/-! ## Corners -/

theorem corner_left {vs : Nat} {l r : List F} {n v : Int} (hl : l.length = n.toNat * vs)
    (h0 : 0 ≤ v) (h : v < n) : corner vs (l ++ r) v = corner vs l v := by
  unfold corner block
  have hk : (v * vs).toNat = v.toNat * vs := by
    rw [Int.toNat_mul h0 (by omega)]; simp
  have hle : v.toNat * vs + vs ≤ l.length := by
    rw [hl]
    calc v.toNat * vs + vs = (v.toNat + 1) * vs := by ring
      _ ≤ n.toNat * vs := Nat.mul_le_mul_right _ (by omega)
  rw [hk, List.drop_append_of_le_length (by omega), List.take_append_of_le_length]
  rw [List.length_drop]
  simp only [Int.toNat_natCast]
  omega

theorem corner_right {vs : Nat} {l r : List F} {n v : Int} (hl : l.length = n.toNat * vs)
    (hn : 0 ≤ n) (h0 : 0 ≤ v) : corner vs (l ++ r) (v + n) = corner vs r v := by
  unfold corner block
  have hk : ((v + n) * vs).toNat = l.length + (v * vs).toNat := by
    rw [Int.toNat_mul (by omega) (by omega), Int.toNat_mul h0 (by omega), hl,
      Int.toNat_add h0 hn]
    simp only [Int.toNat_natCast]
    ring
  rw [hk, ← List.drop_drop, List.drop_left]

theorem block_mem {α : Type} {l : List α} {a n : Int} {x : α} (h : x ∈ block l a n) : x ∈ l :=
  List.mem_of_mem_drop (List.mem_of_mem_take h)

theorem usageKnown_iff (u : Int) : usageKnown u = true ↔ KnownUsage u := by
  unfold usageKnown KnownUsage
  simp [or_assoc]

/-- After a successful merge every index fits 16 bits if those of the first mesh did. -/
theorem merge_fits {vs : Nat} {m o m' : Mesh F} {ix ox : List Int} (inside : Inside vs m)
    (inside' : Inside vs o) (many : m.index = .many ix) (many' : o.index = .many ox)
    (ok : merge m o = (m', .ok .done)) (fit : ∀ v ∈ m.index.elems, 0 ≤ v ∧ v ≤ 65535)
    (nonneg : ∀ v ∈ o.index.elems, 0 ≤ v) : ∀ v ∈ m'.index.elems, 0 ≤ v ∧ v ≤ 65535 := by
  obtain ⟨-, hno, h⟩ := merge_done inside inside' many many' ok
  intro v hv
  rw [h.index] at hv
  simp only [OneOrMany.elems, List.mem_flatten] at hv
  obtain ⟨l, hl, hv⟩ := hv
  obtain ⟨i, hi⟩ := List.mem_iff_getElem?.1 hl
  rw [List.getElem?_zipWith] at hi
  rcases ha : m.mats[i]? with _ | a
  · rw [ha] at hi; simp at hi
  rcases hb : o.mats[i]? with _ | b
  · rw [ha, hb] at hi; simp at hi
  rw [ha, hb] at hi
  simp only [Option.some.injEq] at hi
  subst hi
  unfold pairIndex at hv
  rcases List.mem_append.1 hv with hv | hv
  · exact fit v (block_mem hv)
  · obtain ⟨w, hw, rfl⟩ := List.mem_map.1 hv
    have h1 := nonneg w (block_mem hw)
    have h2 := (inside.verts a (List.mem_of_getElem? ha)).2.1
    refine ⟨by omega, ?_⟩
    by_contra hh
    exact hno ⟨i, a, b, w, ha, hb, hw, by omega⟩

end Bf2
