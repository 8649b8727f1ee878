import Verif.OldEditLemmas

/-!
# Lemmas about `merge` of `/repo/deprecated/modmesh.py`
-/

namespace Bf2

variable {F : Type}

/-- Vertices of two materials. -/
def pairV {α : Type} (v1 v2 : List α) (a b : Mat F) : List α :=
  block v1 a.vstart a.vnum ++ block v2 b.vstart b.vnum

/-- Indices of two materials. -/
def pairI (i1 i2 : List Int) (a b : Mat F) : List Int :=
  block i1 a.istart a.inum ++ (block i2 b.istart b.inum).map (· + a.vnum)

/-- The local variables after these materials. -/
def mergeTo (m o : OldMesh F) (v1 v2 : List (VObj F)) (s : OldMergeSt F) (as bs : List (Mat F)) :
    OldMergeSt F where
  vertices := s.vertices ++ (List.zipWith (pairV v1 v2) as bs).flatten
  indices := s.indices ++ (List.zipWith (pairI m.index o.index) as bs).flatten
  vstart := s.vstart + ((List.zipWith addCounts as bs).map Mat.vnum).sum
  istart := s.istart + ((List.zipWith addCounts as bs).map Mat.inum).sum

theorem mergeTo_append {m o : OldMesh F} {v1 v2 : List (VObj F)} {s : OldMergeSt F}
    {as bs as' bs' : List (Mat F)} (h : as.length = bs.length) :
    mergeTo m o v1 v2 (mergeTo m o v1 v2 s as bs) as' bs' =
      mergeTo m o v1 v2 s (as ++ as') (bs ++ bs') := by
  simp only [mergeTo, List.zipWith_append h, List.flatten_append, List.map_append, List.sum_append,
    List.append_assoc, Int.add_assoc]

theorem retile_append (v i : Int) (l r : List (Mat F)) :
    retile v i (l ++ r) = retile v i l ++ retile (v + (l.map Mat.vnum).sum) (i + (l.map Mat.inum).sum) r := by
  induction l generalizing v i with
  | nil => simp [retile]
  | cons a l ih => simp [retile, ih, Int.add_assoc]

/-- The ranges of a material exist. -/
structure RangesIn (nv : Nat) (ix : List Int) (a : Mat F) : Prop where
  vstart : 0 ≤ a.vstart
  vnum : 0 ≤ a.vnum
  verts : a.vstart + a.vnum ≤ nv
  istart : 0 ≤ a.istart
  inum : 0 ≤ a.inum
  index : a.istart + a.inum ≤ ix.length

section
variable {m o : OldMesh F} {v1 v2 : List (VObj F)}

theorem oldMergeMats_eq (s : OldMergeSt F) (as bs : List (Mat F)) (hlen : as.length = bs.length)
    (ha : ∀ a ∈ as, RangesIn v1.length m.index a) (hb : ∀ b ∈ bs, RangesIn v2.length o.index b) :
    travO (oldMergeMat m o v1 v2) s as bs =
      (mergeTo m o v1 v2 s as bs, retile s.vstart s.istart (List.zipWith addCounts as bs), none) := by
  induction as generalizing s bs with
  | nil => simp [travO, retile, mergeTo]
  | cons a as ih =>
    cases bs with
    | nil => simp at hlen
    | cons b bs =>
      have h1 := ha a (by simp)
      have h2 := hb b (by simp)
      have e1 := block_length v1 h1.vstart h1.vnum h1.verts
      have e2 := block_length v2 h2.vstart h2.vnum h2.verts
      have e3 := block_length m.index h1.istart h1.inum h1.index
      have e4 := block_length o.index h2.istart h2.inum h2.index
      have hv1 := h1.vnum
      have hv2 := h2.vnum
      have hi1 := h1.inum
      have hi2 := h2.inum
      rw [travO]
      simp only [List.head?_cons, oldMergeMat, List.tail_cons]
      rw [pySlice_block _ h1.vstart h1.vnum, pySlice_block _ h2.vstart h2.vnum,
        pySlice_block _ h1.istart h1.inum, pySlice_block _ h2.istart h2.inum]
      rw [ih _ bs (by simpa using hlen) (fun x hx => ha x (by simp [hx]))
        (fun x hx => hb x (by simp [hx]))]
      have l1 : ((block v1 a.vstart a.vnum ++ block v2 b.vstart b.vnum).length : Int) =
          a.vnum + b.vnum := by
        rw [List.length_append, e1, e2]; omega
      have l2 : ((block m.index a.istart a.inum ++
          (block o.index b.istart b.inum).map (· + a.vnum)).length : Int) = a.inum + b.inum := by
        rw [List.length_append, List.length_map, e3, e4]; omega
      simp only [l1, l2, mergeTo, List.zipWith_cons_cons, List.flatten_cons, List.map_cons,
        List.sum_cons, retile, addCounts, pairV, pairI, List.append_assoc, Int.add_assoc]

/-- A lod without its materials. -/
def OldLod.shape (l : OldLod F) : OldLod F := { l with materials := [] }

/-- A geom without its materials. -/
def OldGeom.shape (g : OldGeom F) : Int × List (OldLod F × Nat) :=
  (g.lodnum, g.lods.map fun l => (l.shape, l.materials.length))

theorem oldMergeLods_eq (s : OldMergeSt F) (ls ks : List (OldLod F))
    (h : List.Forall₂ (fun l k : OldLod F => l.materials.length = k.materials.length) ls ks)
    (ha : ∀ l ∈ ls, ∀ a ∈ l.materials, RangesIn v1.length m.index a)
    (hb : ∀ l ∈ ks, ∀ b ∈ l.materials, RangesIn v2.length o.index b) :
    ∃ ls', travO (oldMergeLod m o v1 v2) s ls ks =
        (mergeTo m o v1 v2 s (ls.flatMap OldLod.materials) (ks.flatMap OldLod.materials), ls', none) ∧
      ls'.flatMap OldLod.materials = retile s.vstart s.istart
        (List.zipWith addCounts (ls.flatMap OldLod.materials) (ks.flatMap OldLod.materials)) ∧
      ls'.map (fun l => (l.shape, l.materials.length)) =
        ls.map (fun l => (l.shape, l.materials.length)) ∧
      (ls.flatMap OldLod.materials).length = (ks.flatMap OldLod.materials).length := by
  induction h generalizing s with
  | nil => exact ⟨[], by simp [travO, mergeTo], by simp [retile], rfl, rfl⟩
  | @cons l k ls ks hlk _ ih =>
    obtain ⟨ls', h1, h2, h3, h4⟩ := ih (mergeTo m o v1 v2 s l.materials k.materials)
      (fun x hx => ha x (by simp [hx])) (fun x hx => hb x (by simp [hx]))
    refine ⟨{ l with
      materials := retile s.vstart s.istart (List.zipWith addCounts l.materials k.materials) } :: ls',
      ?_, ?_, ?_, ?_⟩
    · rw [travO]
      simp only [List.head?_cons, List.tail_cons, oldMergeLod, Option.map_some, Option.getD_some]
      rw [oldMergeMats_eq s _ _ hlk (ha l (by simp)) (hb k (by simp))]
      simp only
      rw [h1, mergeTo_append hlk]
      rfl
    · rw [List.flatMap_cons, h2, List.flatMap_cons, List.flatMap_cons, List.zipWith_append hlk,
        retile_append]
      rfl
    · rw [List.map_cons, List.map_cons, h3]
      simp [OldLod.shape, retile_length, hlk]
    · rw [List.flatMap_cons, List.flatMap_cons, List.length_append, List.length_append, hlk, h4]

theorem oldMergeGeoms_eq (s : OldMergeSt F) (gs hs : List (OldGeom F))
    (h : List.Forall₂ (fun g h : OldGeom F =>
      List.Forall₂ (fun l k : OldLod F => l.materials.length = k.materials.length) g.lods h.lods) gs hs)
    (ha : ∀ g ∈ gs, ∀ a ∈ g.mats, RangesIn v1.length m.index a)
    (hb : ∀ g ∈ hs, ∀ b ∈ g.mats, RangesIn v2.length o.index b) :
    ∃ gs', travO (oldMergeGeom m o v1 v2) s gs hs =
        (mergeTo m o v1 v2 s (gs.flatMap OldGeom.mats) (hs.flatMap OldGeom.mats), gs', none) ∧
      gs'.flatMap OldGeom.mats = retile s.vstart s.istart
        (List.zipWith addCounts (gs.flatMap OldGeom.mats) (hs.flatMap OldGeom.mats)) ∧
      gs'.map OldGeom.shape = gs.map OldGeom.shape ∧
      (gs.flatMap OldGeom.mats).length = (hs.flatMap OldGeom.mats).length := by
  induction h generalizing s with
  | nil => exact ⟨[], by simp [travO, mergeTo], by simp [retile], rfl, rfl⟩
  | @cons g k gs hs hgk _ ih =>
    obtain ⟨ls', e1, e2, e3, e4⟩ := oldMergeLods_eq (m := m) (o := o) (v1 := v1) (v2 := v2) s
      g.lods k.lods hgk
      (fun l hl a hal => ha g (by simp) a (List.mem_flatMap.2 ⟨l, hl, hal⟩))
      (fun l hl a hal => hb k (by simp) a (List.mem_flatMap.2 ⟨l, hl, hal⟩))
    obtain ⟨gs', h1, h2, h3, h4⟩ := ih (mergeTo m o v1 v2 s g.mats k.mats)
      (fun x hx => ha x (by simp [hx])) (fun x hx => hb x (by simp [hx]))
    have e4' : g.mats.length = k.mats.length := e4
    refine ⟨{ g with lods := ls' } :: gs', ?_, ?_, ?_, ?_⟩
    · rw [travO]
      simp only [List.head?_cons, List.tail_cons, oldMergeGeom, Option.map_some, Option.getD_some]
      rw [e1]
      simp only
      have e : mergeTo m o v1 v2 s (g.lods.flatMap OldLod.materials)
        (k.lods.flatMap OldLod.materials) = mergeTo m o v1 v2 s g.mats k.mats := rfl
      rw [e, h1, mergeTo_append e4']
      rfl
    · rw [List.flatMap_cons, h2, List.flatMap_cons, List.flatMap_cons, List.zipWith_append e4',
        retile_append]
      congr 1
    · rw [List.map_cons, List.map_cons, h3]
      simp only [OldGeom.shape, e3]
    · rw [List.flatMap_cons, List.flatMap_cons, List.length_append, List.length_append, e4', h4]

end

/-! ## The vertices written -/

/-- A range of vertices, as vertices and as floats. -/
theorem verts_block {vs n : Nat} {l : List F} {s k : Int} (h : l.length = n * vs) (hs : 0 ≤ s)
    (hk : 0 ≤ k) (hsk : s + k ≤ n) :
    (block (verts vs n l) s k).flatten = block l (s * vs) (k * vs) := by
  obtain ⟨s, rfl⟩ := Int.eq_ofNat_of_zero_le hs
  obtain ⟨k, rfl⟩ := Int.eq_ofNat_of_zero_le hk
  have hsk' : s + k ≤ n := by omega
  have e : block (verts vs n l) (s : Int) (k : Int) = verts vs k (l.drop (s * vs)) := by
    unfold block verts
    apply List.ext_getElem
    · simp; omega
    · intro i h1 h2
      simp only [Int.toNat_natCast, List.getElem_take, List.getElem_drop, List.getElem_map,
        List.getElem_range]
      unfold vert
      rw [List.drop_drop, Nat.add_mul]
  have hle : (s + k) * vs ≤ n * vs := Nat.mul_le_mul_right _ hsk'
  rw [Nat.add_mul] at hle
  have e2 : verts vs k (l.drop (s * vs)) = verts vs k ((l.drop (s * vs)).take (k * vs)) := by
    unfold verts
    apply List.map_congr_left
    intro i hi
    have hi := List.mem_range.1 hi
    have : (i + 1) * vs ≤ k * vs := Nat.mul_le_mul_right _ hi
    rw [Nat.add_mul, Nat.one_mul] at this
    unfold vert
    rw [List.drop_take, List.take_take]
    congr 1
    omega
  rw [e, e2, verts_flatten (by rw [List.length_take, List.length_drop]; omega)]
  unfold block
  congr 1

theorem forall₂_zip_flatten {α β : Type} {R : α → β → Prop} {v1 v2 : List α} {w1 w2 : List β}
    (h1 : List.Forall₂ R v1 w1) (h2 : List.Forall₂ R v2 w2) (as bs : List (Mat F)) :
    List.Forall₂ R (List.zipWith (pairV v1 v2) as bs).flatten
      (List.zipWith (pairV w1 w2) as bs).flatten := by
  induction as generalizing bs with
  | nil => simp
  | cons a as ih =>
    cases bs with
    | nil => simp
    | cons b bs =>
      simp only [List.zipWith_cons_cons, List.flatten_cons]
      refine List.rel_append ?_ (ih bs)
      unfold pairV block
      exact List.rel_append (List.forall₂_take _ (List.forall₂_drop _ h1))
        (List.forall₂_take _ (List.forall₂_drop _ h2))

theorem zip_flatten {vs n k : Nat} {l r : List F} (hl : l.length = n * vs) (hr : r.length = k * vs)
    (as bs : List (Mat F))
    (ha : ∀ a ∈ as, 0 ≤ a.vstart ∧ 0 ≤ a.vnum ∧ a.vstart + a.vnum ≤ (n : Int))
    (hb : ∀ a ∈ bs, 0 ≤ a.vstart ∧ 0 ≤ a.vnum ∧ a.vstart + a.vnum ≤ (k : Int)) :
    ((List.zipWith (pairV (verts vs n l) (verts vs k r)) as bs).flatten).flatten =
      (List.zipWith (fun a b : Mat F => block l (a.vstart * vs) (a.vnum * vs) ++
        block r (b.vstart * vs) (b.vnum * vs)) as bs).flatten := by
  induction as generalizing bs with
  | nil => simp
  | cons a as ih =>
    cases bs with
    | nil => simp
    | cons b bs =>
      obtain ⟨a1, a2, a3⟩ := ha a (by simp)
      obtain ⟨b1, b2, b3⟩ := hb b (by simp)
      simp only [List.zipWith_cons_cons, List.flatten_cons, List.flatten_append]
      rw [ih bs (fun x hx => ha x (by simp [hx])) (fun x hx => hb x (by simp [hx]))]
      unfold pairV
      rw [List.flatten_append, verts_block hl a1 a2 a3, verts_block hr b1 b2 b3]

/-- The sizes of the pieces. -/
theorem zip_pairV_length {α : Type} {v1 v2 : List α} (as bs : List (Mat F))
    (ha : ∀ a ∈ as, 0 ≤ a.vstart ∧ 0 ≤ a.vnum ∧ a.vstart + a.vnum ≤ (v1.length : Int))
    (hb : ∀ a ∈ bs, 0 ≤ a.vstart ∧ 0 ≤ a.vnum ∧ a.vstart + a.vnum ≤ (v2.length : Int)) :
    (((List.zipWith (pairV v1 v2) as bs).flatten).length : Int) =
      ((List.zipWith addCounts as bs).map Mat.vnum).sum := by
  induction as generalizing bs with
  | nil => simp
  | cons a as ih =>
    cases bs with
    | nil => simp
    | cons b bs =>
      obtain ⟨a1, a2, a3⟩ := ha a (by simp)
      obtain ⟨b1, b2, b3⟩ := hb b (by simp)
      simp only [List.zipWith_cons_cons, List.flatten_cons, List.length_append, List.map_cons,
        List.sum_cons, Nat.cast_add]
      rw [ih bs (fun x hx => ha x (by simp [hx])) (fun x hx => hb x (by simp [hx]))]
      unfold pairV
      rw [List.length_append, block_length v1 a1 a2 a3, block_length v2 b1 b2 b3]
      simp only [addCounts]
      omega

theorem zip_pairI_length {i1 i2 : List Int} (as bs : List (Mat F))
    (ha : ∀ a ∈ as, 0 ≤ a.istart ∧ 0 ≤ a.inum ∧ a.istart + a.inum ≤ (i1.length : Int))
    (hb : ∀ a ∈ bs, 0 ≤ a.istart ∧ 0 ≤ a.inum ∧ a.istart + a.inum ≤ (i2.length : Int)) :
    (((List.zipWith (pairI i1 i2) as bs).flatten).length : Int) =
      ((List.zipWith addCounts as bs).map Mat.inum).sum := by
  induction as generalizing bs with
  | nil => simp
  | cons a as ih =>
    cases bs with
    | nil => simp
    | cons b bs =>
      obtain ⟨a1, a2, a3⟩ := ha a (by simp)
      obtain ⟨b1, b2, b3⟩ := hb b (by simp)
      simp only [List.zipWith_cons_cons, List.flatten_cons, List.length_append, List.map_cons,
        List.sum_cons, Nat.cast_add]
      rw [ih bs (fun x hx => ha x (by simp [hx])) (fun x hx => hb x (by simp [hx]))]
      unfold pairI
      rw [List.length_append, List.length_map, block_length i1 a1 a2 a3, block_length i2 b1 b2 b3]
      simp only [addCounts]
      omega

/-! ## The whole merge -/

/-- The vertex array of the merged mesh. -/
def mergedVerts (vs : Nat) (m o : OldMesh F) : List F :=
  (List.zipWith (fun a b => m.vdata vs a ++ o.vdata vs b) m.mats o.mats).flatten

/-- The index array of the merged mesh. -/
def mergedIndex (m o : OldMesh F) : List Int :=
  (List.zipWith (fun a b => m.idata a ++ (o.idata b).map (· + a.vnum)) m.mats o.mats).flatten

/-- The merged mesh before its bounds are updated and its index is replaced. -/
structure OldMid (vs : Nat) (m o m1 : OldMesh F) : Prop where
  rest : m1 = { m with
    geoms := m1.geoms, vertices := mergedVerts vs m o, vertsList := false
    vertnum := ((List.zipWith addCounts m.mats o.mats).map Mat.vnum).sum }
  shape : m1.geoms.map OldGeom.shape = m.geoms.map OldGeom.shape
  mats : m1.mats = retile 0 0 (List.zipWith addCounts m.mats o.mats)
  packed : Packed vs m1
  lengths : m.mats.length = o.mats.length

theorem oldMerge_mid [FArith F] {vs : Nat} {m o : OldMesh F} (h : OldMergeable vs m o)
    (small : (mergedVerts vs m o).length ≤ 2 ^ 53) :
    ∃ m1, OldMid vs m o m1 ∧ oldMerge m o =
      match oldUpdateBoundaries m1 with
      | (m', some e) => (m', some e)
      | (m', none) => ({ m' with
          index := mergedIndex m o, indexnum := (mergedIndex m o).length, indexList := false }, none) := by
  obtain ⟨n, hn, hlen⟩ := h.packed.num
  obtain ⟨k, hk, hlen'⟩ := h.packed'.num
  obtain ⟨v1, hv1, hh1⟩ := getVertices_holds h.packed.table hn hlen
  obtain ⟨v2, hv2, hh2⟩ := getVertices_holds h.packed'.table hk hlen'
  have l1 : v1.length = n := by rw [hh1.length_eq, verts_length]
  have l2 : v2.length = k := by rw [hh2.length_eq, verts_length]
  have hva : ∀ a ∈ m.mats, 0 ≤ a.vstart ∧ 0 ≤ a.vnum ∧ a.vstart + a.vnum ≤ (n : Int) :=
    fun a ha => by have := h.verts a ha; rw [hn] at this; exact this
  have hvb : ∀ a ∈ o.mats, 0 ≤ a.vstart ∧ 0 ≤ a.vnum ∧ a.vstart + a.vnum ≤ (k : Int) :=
    fun a ha => by have := h.verts' a ha; rw [hk] at this; exact this
  have hra : ∀ a ∈ m.mats, RangesIn v1.length m.index a := fun a ha => by
    obtain ⟨x1, x2, x3⟩ := hva a ha
    obtain ⟨y1, y2, y3⟩ := h.index a ha
    exact ⟨x1, x2, by rw [l1]; exact x3, y1, y2, y3⟩
  have hrb : ∀ a ∈ o.mats, RangesIn v2.length o.index a := fun a ha => by
    obtain ⟨x1, x2, x3⟩ := hvb a ha
    obtain ⟨y1, y2, y3⟩ := h.index' a ha
    exact ⟨x1, x2, by rw [l2]; exact x3, y1, y2, y3⟩
  obtain ⟨gs, e1, e2, e3, e4⟩ := oldMergeGeoms_eq (m := m) (o := o) (v1 := v1) (v2 := v2)
    ⟨[], [], 0, 0⟩ m.geoms o.geoms h.counts
    (fun g hg a ha => hra a (List.mem_flatMap.2 ⟨g, hg, ha⟩))
    (fun g hg a ha => hrb a (List.mem_flatMap.2 ⟨g, hg, ha⟩))
  have hh2' : List.Forall₂ (fun v w => Holds v m.vattrs w) v2 (verts vs k o.vertices) := by
    rw [h.attrs]; exact hh2
  have hhold := forall₂_zip_flatten hh1 hh2' m.mats o.mats
  have hflat := zip_flatten hlen hlen' m.mats o.mats hva hvb
  have hcount := zip_pairV_length (v1 := verts vs n m.vertices) (v2 := verts vs k o.vertices)
    m.mats o.mats (fun a ha => by rw [verts_length]; exact hva a ha)
    (fun a ha => by rw [verts_length]; exact hvb a ha)
  generalize hws : (List.zipWith (pairV (verts vs n m.vertices) (verts vs k o.vertices))
    m.mats o.mats).flatten = ws at hhold hflat hcount
  have hmv : ws.flatten = mergedVerts vs m o := hflat
  have hwl : ws.flatten.length = ws.length * vs := by
    have hall : ∀ w ∈ ws, w.length = vs := by
      intro w hw
      obtain ⟨i, hi⟩ := List.mem_iff_getElem?.1 hw
      obtain ⟨v, hv, hvw⟩ := forall₂_getElem? hhold.flip hi
      have := hvw.length h.packed.table.packs
      omega
    rw [List.length_flatten, List.map_congr_left hall]
    simp
  obtain ⟨u1, u2⟩ := updateVertices_eq (m := { m with geoms := gs }) h.packed.table hhold
    (by rw [← hwl, hmv]; exact small)
  refine ⟨{ m with
    geoms := gs, vertices := mergedVerts vs m o, vertsList := false
    vertnum := ((List.zipWith addCounts m.mats o.mats).map Mat.vnum).sum },
    ⟨rfl, e3, e2, ⟨h.packed.table, ?_⟩, e4⟩, ?_⟩
  · simp only
    rw [← hmv, hwl, ← hcount]
    push_cast
    rfl
  · unfold oldMerge
    have hst : ¬ (m.kind.isStatic = false ∧ o.kind.isStatic = false) := by
      rcases h.static with h | h <;> simp [h]
    rw [if_neg hst, if_neg (by simpa using h.attrs),
      if_neg (by simpa using h.counts.length_eq), hv1]
    simp only [hv2]
    rw [e1]
    simp only [mergeTo, List.nil_append]
    have hvv : (List.zipWith (pairV v1 v2) (m.geoms.flatMap OldGeom.mats)
      (o.geoms.flatMap OldGeom.mats)).flatten = (List.zipWith (pairV v1 v2) m.mats o.mats).flatten := rfl
    rw [hvv, u1, hmv, hcount]
    rfl

/-- Materials of meshes that differ in bounds only. -/
theorem BoundsGrown.mats [FArith F] {vs p : Nat} {m1 : OldMesh F} {gs : List (OldGeom F)}
    (h : BoundsGrown vs p m1 gs) :
    List.Forall₂ (fun a a' : Mat F => ∃ mn mx mn' mx', a.mmin = some mn ∧ a.mmax = some mx ∧
      a' = { a with mmin := some mn', mmax := some mx' } ∧ BoxGrown mn mx mn' mx' (OldPosOf vs p m1 a))
      m1.mats (gs.flatMap OldGeom.mats) := by
  have hl : ∀ (ls ls' : List (OldLod F)), List.Forall₂ (LodGrown vs p m1) ls ls' →
      List.Forall₂ (fun a a' : Mat F => ∃ mn mx mn' mx', a.mmin = some mn ∧ a.mmax = some mx ∧
      a' = { a with mmin := some mn', mmax := some mx' } ∧ BoxGrown mn mx mn' mx' (OldPosOf vs p m1 a))
      (ls.flatMap OldLod.materials) (ls'.flatMap OldLod.materials) := by
    intro ls ls' hls
    induction hls with
    | nil => exact .nil
    | cons h _ ih =>
      rw [List.flatMap_cons, List.flatMap_cons]
      exact List.rel_append h.mats ih
  have hg : ∀ (as bs : List (OldGeom F)), List.Forall₂ (fun g g' : OldGeom F =>
      g'.lodnum = g.lodnum ∧ List.Forall₂ (LodGrown vs p m1) g.lods g'.lods) as bs →
      List.Forall₂ (fun a a' : Mat F => ∃ mn mx mn' mx', a.mmin = some mn ∧ a.mmax = some mx ∧
      a' = { a with mmin := some mn', mmax := some mx' } ∧ BoxGrown mn mx mn' mx' (OldPosOf vs p m1 a))
      (as.flatMap OldGeom.mats) (bs.flatMap OldGeom.mats) := by
    intro as bs hab
    induction hab with
    | nil => exact .nil
    | cons h _ ih =>
      rw [List.flatMap_cons, List.flatMap_cons]
      exact List.rel_append (hl _ _ h.2) ih
  exact hg _ _ h

/-! ## The parts of the result -/

theorem Packed.vdata_length {vs : Nat} {m : OldMesh F} (hp : Packed vs m) {a : Mat F}
    (h : 0 ≤ a.vstart ∧ 0 ≤ a.vnum ∧ a.vstart + a.vnum ≤ m.vertnum) :
    (m.vdata vs a).length = a.vnum.toNat * vs := by
  obtain ⟨n, hn, hlen⟩ := hp.num
  obtain ⟨h1, h2, h3⟩ := h
  rw [hn] at h3
  unfold OldMesh.vdata
  have h4 : (a.vstart + a.vnum) * (vs : Int) ≤ n * vs := Int.mul_le_mul_of_nonneg_right h3 (by omega)
  rw [Int.add_mul] at h4
  rw [block_length _ (Int.mul_nonneg h1 (by omega)) (Int.mul_nonneg h2 (by omega))
    (by rw [hlen]; push_cast; exact h4)]
  obtain ⟨k, hk⟩ := Int.eq_ofNat_of_zero_le h2
  rw [hk]
  exact_mod_cast rfl

section
variable {vs : Nat} {m o : OldMesh F}

theorem OldMergeable.vpieces (h : OldMergeable vs m o) :
    List.Forall₂ (fun a d => 0 ≤ a.vnum ∧ d.length = a.vnum.toNat * vs)
      (List.zipWith addCounts m.mats o.mats)
      (List.zipWith (fun a b => m.vdata vs a ++ o.vdata vs b) m.mats o.mats) := by
  refine forall₂_zipWith _ _ fun a ha b hb => ?_
  have h1 := h.verts a ha
  have h2 := h.verts' b hb
  have h3 := h1.2.1
  have h4 := h2.2.1
  refine ⟨by simp only [addCounts]; omega, ?_⟩
  rw [List.length_append, h.packed.vdata_length h1, h.packed'.vdata_length h2]
  simp only [addCounts]
  rw [Int.toNat_add h3 h4]
  ring

theorem OldMergeable.ipieces (h : OldMergeable vs m o) :
    List.Forall₂ (fun a d => 0 ≤ a.inum ∧ d.length = a.inum.toNat)
      (List.zipWith addCounts m.mats o.mats)
      (List.zipWith (fun a b => m.idata a ++ (o.idata b).map (· + a.vnum)) m.mats o.mats) := by
  refine forall₂_zipWith _ _ fun a ha b hb => ?_
  obtain ⟨a1, a2, a3⟩ := h.index a ha
  obtain ⟨b1, b2, b3⟩ := h.index' b hb
  refine ⟨by simp only [addCounts]; omega, ?_⟩
  unfold OldMesh.idata
  rw [List.length_append, List.length_map, block_length _ a1 a2 a3, block_length _ b1 b2 b3]
  simp only [addCounts]
  rw [Int.toNat_add a2 b2]

theorem mergedVerts_length (h : OldMergeable vs m o) (hl : m.mats.length = o.mats.length) :
    (mergedVerts vs m o).length = (m.ids.length + o.ids.length) * vs := by
  have key : ∀ (as bs : List (Mat F)), as.length = bs.length → (∀ a ∈ as, a ∈ m.mats) →
      (∀ b ∈ bs, b ∈ o.mats) →
      (List.zipWith (fun a b => m.vdata vs a ++ o.vdata vs b) as bs).flatten.length =
        ((as.flatMap Mat.ids).length + (bs.flatMap Mat.ids).length) * vs := by
    intro as
    induction as with
    | nil => intro bs hl; cases bs <;> simp at hl ⊢
    | cons a as ih =>
      intro bs hl ha hb
      cases bs with
      | nil => simp at hl
      | cons b bs =>
        simp only [List.zipWith_cons_cons, List.flatten_cons, List.length_append,
          List.flatMap_cons]
        rw [ih bs (by simpa using hl) (fun x hx => ha x (by simp [hx]))
          (fun x hx => hb x (by simp [hx])), h.packed.vdata_length (h.verts a (ha a (by simp))),
          h.packed'.vdata_length (h.verts' b (hb b (by simp)))]
        unfold Mat.ids
        rw [List.length_range', List.length_range']
        ring
  exact key _ _ hl (fun _ h => h) (fun _ h => h)

/-- The final mesh: the merged one with bounds of materials changed. -/
structure OldFinal (vs : Nat) (m o m' : OldMesh F) : Prop where
  mats : List.Forall₂ (fun a a' : Mat F => a' = { a with mmin := a'.mmin, mmax := a'.mmax })
    (retile 0 0 (List.zipWith addCounts m.mats o.mats)) m'.mats
  vertices : m'.vertices = mergedVerts vs m o
  index : m'.index = mergedIndex m o
  vertnum : m'.vertnum = ((List.zipWith addCounts m.mats o.mats).map Mat.vnum).sum

variable {m' : OldMesh F}

theorem OldFinal.field {β : Type} (hf : OldFinal vs m o m') (f : Mat F → β)
    (hfe : ∀ a : Mat F, ∀ x y, f { a with mmin := x, mmax := y } = f a) :
    m'.mats.map f = (retile 0 0 (List.zipWith addCounts m.mats o.mats)).map f := by
  have := hf.mats
  symm
  rw [← List.forall₂_eq_eq_eq, List.forall₂_map_left_iff, List.forall₂_map_right_iff]
  refine this.imp ?_
  intro a a' h
  rw [h]
  exact (hfe a _ _).symm

theorem OldFinal.tiled (hf : OldFinal vs m o m') (h : OldMergeable vs m o) : OldTiled m' where
  nonneg := by
    intro a ha
    obtain ⟨i, hi⟩ := List.mem_iff_getElem?.1 ha
    obtain ⟨b, hb, hab⟩ := forall₂_getElem? hf.mats.flip hi
    obtain ⟨c, hc, h1, -⟩ := retile_mem (List.mem_of_getElem? hb)
    rw [hab, h1]
    exact forall₂_left h.vpieces (fun _ _ h => h.1) c hc
  start := by
    intro i a ha
    obtain ⟨b, hb, hab⟩ := forall₂_getElem? hf.mats.flip ha
    obtain ⟨c, hc, rfl⟩ := retile_fields hb
    rw [hab]
    simp only [List.map_take, hf.field Mat.vnum (fun _ _ _ => rfl), retile_vnum, Int.zero_add]
  total := by rw [hf.vertnum, hf.field Mat.vnum (fun _ _ _ => rfl), retile_vnum]

theorem OldFinal.tiledIndex (hf : OldFinal vs m o m') (h : OldMergeable vs m o) :
    OldTiledIndex m' where
  nonneg := by
    intro a ha
    obtain ⟨i, hi⟩ := List.mem_iff_getElem?.1 ha
    obtain ⟨b, hb, hab⟩ := forall₂_getElem? hf.mats.flip hi
    obtain ⟨c, hc, -, h1⟩ := retile_mem (List.mem_of_getElem? hb)
    rw [hab, h1]
    exact forall₂_left h.ipieces (fun _ _ h => h.1) c hc
  start := by
    intro i a ha
    obtain ⟨b, hb, hab⟩ := forall₂_getElem? hf.mats.flip ha
    obtain ⟨c, hc, rfl⟩ := retile_fields hb
    rw [hab]
    simp only [List.map_take, hf.field Mat.inum (fun _ _ _ => rfl), retile_inum, Int.zero_add]
  total := by
    rw [hf.field Mat.inum (fun _ _ _ => rfl), retile_inum, hf.index]
    have := sum_lengths (k := 1) (f := Mat.inum) (by simpa using h.ipieces)
    unfold mergedIndex
    rw [List.length_flatten, this]
    simp

theorem OldFinal.mat (hf : OldFinal vs m o m') (h : OldMergeable vs m o) {i : Nat} {a b : Mat F}
    (ha : m.mats[i]? = some a) (hb : o.mats[i]? = some b) :
    ∃ a', m'.mats[i]? = some a' ∧ OldMatMerged vs m o m' a b a' := by
  have hz : (List.zipWith addCounts m.mats o.mats)[i]? = some (addCounts a b) := by
    rw [List.getElem?_zipWith, ha, hb]
  have hr : (retile 0 0 (List.zipWith addCounts m.mats o.mats))[i]? = some { addCounts a b with
      vstart := 0 + (((List.zipWith addCounts m.mats o.mats).take i).map Mat.vnum).sum
      istart := 0 + (((List.zipWith addCounts m.mats o.mats).take i).map Mat.inum).sum } := by
    rw [retile_getElem?, hz]
    rfl
  obtain ⟨a', ha', haa⟩ := forall₂_getElem? hf.mats hr
  obtain ⟨d, hd, hnv, hlv⟩ := forall₂_getElem? h.vpieces hz
  obtain ⟨e, he, hni, hli⟩ := forall₂_getElem? h.ipieces hz
  have hd' := hd
  have he' := he
  rw [List.getElem?_zipWith, ha, hb] at hd' he'
  simp only [Option.some.injEq] at hd' he'
  generalize a'.mmin = x, a'.mmax = y at haa
  subst haa
  refine ⟨_, ha', ⟨rfl, ?_, ?_⟩⟩
  · rw [hd']
    unfold OldMesh.vdata
    rw [hf.vertices]
    apply block_flatten _ i d hd
    · rw [sum_lengths (k := vs) (f := Mat.vnum) (List.forall₂_take i h.vpieces)]
      simp
    · rw [hlv]; push_cast; rw [Int.toNat_of_nonneg hnv]
  · rw [he']
    unfold OldMesh.idata
    rw [hf.index]
    apply block_flatten _ i e he
    · have := sum_lengths (k := 1) (f := Mat.inum) (List.forall₂_take i (by simpa using h.ipieces))
      rw [this]; simp
    · rw [hli]; rw [Int.toNat_of_nonneg hni]

end

theorem OldMergeable.mats_length {vs : Nat} {m o : OldMesh F} (h : OldMergeable vs m o) :
    m.mats.length = o.mats.length := by
  have hl : ∀ (ls ks : List (OldLod F)),
      List.Forall₂ (fun l k : OldLod F => l.materials.length = k.materials.length) ls ks →
      (ls.flatMap OldLod.materials).length = (ks.flatMap OldLod.materials).length := by
    intro ls ks h
    induction h with
    | nil => rfl
    | cons h _ ih => rw [List.flatMap_cons, List.flatMap_cons, List.length_append,
        List.length_append, h, ih]
  have hg : ∀ (gs hs : List (OldGeom F)), List.Forall₂ (fun g h : OldGeom F =>
      List.Forall₂ (fun l k : OldLod F => l.materials.length = k.materials.length) g.lods h.lods)
      gs hs → (gs.flatMap OldGeom.mats).length = (hs.flatMap OldGeom.mats).length := by
    intro gs hs h
    induction h with
    | nil => rfl
    | cons h _ ih =>
      rw [List.flatMap_cons, List.flatMap_cons, List.length_append, List.length_append, ih]
      congr 1
      exact hl _ _ h
  exact hg _ _ h.counts

theorem zipWith_mem {α β γ : Type} {f : α → β → γ} {l : List α} {r : List β} {c : γ}
    (h : c ∈ List.zipWith f l r) : ∃ a ∈ l, ∃ b ∈ r, c = f a b := by
  obtain ⟨i, hi⟩ := List.mem_iff_getElem?.1 h
  rw [List.getElem?_zipWith] at hi
  rcases ha : l[i]? with _ | a <;> rcases hb : r[i]? with _ | b <;> rw [ha, hb] at hi <;>
    simp at hi
  exact ⟨a, List.mem_of_getElem? ha, b, List.mem_of_getElem? hb, hi.symm⟩

/-- Before the bounds are updated. -/
theorem OldMid.ready {vs : Nat} {m o m1 : OldMesh F} (h : OldMid vs m o m1)
    (hm : OldMergeable vs m o) (hb : HasBounds m) :
    HasBounds m1 ∧ OldFinal vs m o { m1 with index := mergedIndex m o } ∧ VertsExist m1 := by
  have hf : OldFinal vs m o { m1 with index := mergedIndex m o } := by
    refine ⟨?_, by rw [h.rest], rfl, by rw [h.rest]⟩
    have : ({ m1 with index := mergedIndex m o } : OldMesh F).mats = m1.mats := rfl
    rw [this, h.mats]
    exact List.forall₂_same.2 fun _ _ => rfl
  refine ⟨?_, hf, (hf.tiled hm).exist⟩
  intro a ha
  rw [h.mats] at ha
  obtain ⟨i, hi⟩ := List.mem_iff_getElem?.1 ha
  obtain ⟨c, hc, rfl⟩ := retile_fields hi
  obtain ⟨x, hx, y, hy, rfl⟩ := zipWith_mem (List.mem_of_getElem? hc)
  exact hb x hx

theorem OldMid.mat_bounds {vs : Nat} {m o m1 : OldMesh F} (h : OldMid vs m o m1) {i : Nat}
    {a b a1 : Mat F} (ha : m.mats[i]? = some a) (hb : o.mats[i]? = some b)
    (ha1 : m1.mats[i]? = some a1) : a1.mmin = a.mmin ∧ a1.mmax = a.mmax := by
  rw [h.mats] at ha1
  obtain ⟨c, hc, rfl⟩ := retile_fields ha1
  rw [List.getElem?_zipWith, ha, hb] at hc
  simp only [Option.some.injEq] at hc
  subst hc
  exact ⟨rfl, rfl⟩

/-- Bounds may be changed again. -/
theorem OldFinal.bounds [FArith F] {vs p : Nat} {m o m1 m' q : OldMesh F}
    (hf : OldFinal vs m o { m1 with index := mergedIndex m o })
    (h : List.Forall₂ (fun a a' : Mat F => ∃ mn mx mn' mx', a.mmin = some mn ∧ a.mmax = some mx ∧
      a' = { a with mmin := some mn', mmax := some mx' } ∧ BoxGrown mn mx mn' mx' (OldPosOf vs p q a))
      m1.mats m'.mats)
    (hv : m'.vertices = m1.vertices) (hi : m'.index = mergedIndex m o)
    (hn : m'.vertnum = m1.vertnum) : OldFinal vs m o m' := by
  refine ⟨?_, by rw [hv]; exact hf.vertices, hi, by rw [hn]; exact hf.vertnum⟩
  have h1 := hf.mats
  have h2 : ({ m1 with index := mergedIndex m o } : OldMesh F).mats = m1.mats := rfl
  rw [h2] at h1
  revert h1 h
  generalize retile 0 0 (List.zipWith addCounts m.mats o.mats) = l
  generalize m1.mats = l1
  generalize m'.mats = l2
  intro h h1
  induction h1 generalizing l2 with
  | nil => cases h; exact .nil
  | cons hab _ ih =>
    cases h with
    | cons h3 h4 =>
      refine .cons ?_ (ih _ h4)
      obtain ⟨_, _, _, _, -, -, e, -⟩ := h3
      rw [e, hab]

/-! ## Lods -/

theorem forall₂_map_comp {α β γ : Type} {R : α → β → Prop} {S : α → β → Prop} {f : α → γ}
    {l l1 : List α} {r : List β} (hm : l1.map f = l.map f) (h : List.Forall₂ R l1 r)
    (hRS : ∀ a a1 b, f a1 = f a → a1 ∈ l1 → R a1 b → S a b) : List.Forall₂ S l r := by
  induction h generalizing l with
  | nil =>
    have : l = [] := by simpa using hm.symm
    rw [this]
    exact .nil
  | @cons a1 b l1 r hab _ ih =>
    cases l with
    | nil => simp at hm
    | cons a l =>
      rw [List.map_cons, List.map_cons] at hm
      injection hm with h1 h2
      exact .cons (hRS a a1 b h1 (by simp) hab)
        (ih h2 fun a a1 b h hm' => hRS a a1 b h (by simp [hm']))

theorem exists_forall₂ {α β : Type} {R : α → β → Prop} {l : List α} {r : List β}
    (h : List.Forall₂ R l r) {P : α → Prop} {Q : β → Prop} (hpq : ∀ a b, R a b → (P a ↔ Q b)) :
    (∃ a ∈ l, P a) ↔ ∃ b ∈ r, Q b := by
  induction h with
  | nil => simp
  | cons hab _ ih => simp [ih, hpq _ _ hab]

variable [FArith F]

/-- The lods of a mesh that got its materials replaced, then bounds grown. -/
theorem lods_merged {vs p : Nat} {m m1 m' : OldMesh F}
    (hs : m1.geoms.map OldGeom.shape = m.geoms.map OldGeom.shape)
    (hg : BoundsGrown vs p m1 m'.geoms) (hv : m'.vertices = m1.vertices) :
    List.Forall₂ (fun g g' : OldGeom F => g'.lodnum = g.lodnum ∧
      List.Forall₂ (OldLodMerged vs p m') g.lods g'.lods) m.geoms m'.geoms := by
  refine forall₂_map_comp hs hg fun g g1 g' hsh _ hg' => ?_
  unfold OldGeom.shape at hsh
  injection hsh with h1 h2
  refine ⟨by rw [hg'.1, h1], forall₂_map_comp h2 hg'.2 fun l l1 l' hl _ hgr => ?_⟩
  injection hl with h3 h4
  have hlr := hgr.rest
  have e1 : l1.min = l.min := by have := congrArg OldLod.min h3; exact this
  have e2 : l1.max = l.max := by have := congrArg OldLod.max h3; exact this
  refine ⟨?_, ?_, ?_⟩
  · have hP : (fun x => ∃ a ∈ l'.materials, OldPosOf vs p m' a x) =
        fun x => ∃ a ∈ l1.materials, OldPosOf vs p m1 a x := by
      funext x
      apply propext
      symm
      refine exists_forall₂ hgr.mats ?_
      rintro a a' ⟨_, _, _, _, -, -, rfl, -⟩
      unfold OldPosOf
      rw [hv]
      rfl
    rw [hP, ← e1, ← e2]
    exact hgr.lod
  · rw [← h4]; exact hgr.mats.length_eq.symm
  · have h5 : ({ l' with min := l.min, max := l.max, materials := l.materials } : OldLod F) =
        { ({ l' with min := l1.min, max := l1.max, materials := l1.materials } : OldLod F) with
          min := l.min, max := l.max, materials := l.materials } := rfl
    rw [h5, hlr]
    have h6 : ({ l1 with min := l.min, max := l.max, materials := l.materials } : OldLod F) =
        { l1.shape with min := l.min, max := l.max, materials := l.materials } := rfl
    rw [h6, h3]
    rfl

theorem oldMerge_final [LawfulLt F] {vs p : Nat} {m o : OldMesh F}
    (mergeable : OldMergeable vs m o) (pos : Float3At m.vertformat m.vattrs 0 p)
    (bounds : HasBounds m) (small : (m.ids.length + o.ids.length) * vs ≤ 2 ^ 53) :
    ∃ m1 gs m', OldMid vs m o m1 ∧ BoundsGrown vs p m1 gs ∧ oldMerge m o = (m', none) ∧
      m' = { m1 with
        geoms := gs, index := mergedIndex m o, indexnum := (mergedIndex m o).length
        indexList := false } ∧ OldFinal vs m o m' := by
  have small' : (mergedVerts vs m o).length ≤ 2 ^ 53 := by
    rw [mergedVerts_length mergeable mergeable.mats_length]; exact small
  obtain ⟨m1, mid, hmerge⟩ := oldMerge_mid mergeable small'
  obtain ⟨h1, h2, hex⟩ := mid.ready mergeable bounds
  obtain ⟨gs, h3, h4⟩ := oldUpdateBoundaries_eq (o := p) mid.packed
    (by rw [mid.rest]; exact pos) h1 (fun a ha => ⟨(hex a ha).1, (hex a ha).2.1⟩)
  refine ⟨m1, gs, { m1 with
    geoms := gs, index := mergedIndex m o, indexnum := (mergedIndex m o).length, indexList := false },
    mid, h4, by rw [hmerge, h3], rfl, h2.bounds h4.mats rfl rfl rfl⟩

/-! ## Other counts -/

omit [FArith F] in
theorem travO_only {σ α β : Type} {f : σ → α → Option β → σ × α × Option Err} {e : Err}
    (hf : ∀ s a b, (f s a b).2.2 = none ∨ (f s a b).2.2 = some e) (s : σ) (as : List α) (bs : List β) :
    (travO f s as bs).2.2 = none ∨ (travO f s as bs).2.2 = some e := by
  induction as generalizing s bs with
  | nil => exact .inl rfl
  | cons a as ih =>
    rw [travO]
    have := hf s a bs.head?
    rcases h : f s a bs.head? with ⟨s', a', x⟩
    rw [h] at this
    rcases this with h1 | h1
    · simp only at h1
      subst h1
      exact ih s' bs.tail
    · simp only at h1
      subst h1
      exact .inr rfl

omit [FArith F] in
theorem travO_raises {σ α β : Type} {f : σ → α → Option β → σ × α × Option Err} {e : Err}
    (hf : ∀ s a b, (f s a b).2.2 = none ∨ (f s a b).2.2 = some e) (s : σ) (as : List α) (bs : List β)
    {i : Nat} {a : α} (ha : as[i]? = some a) (hr : ∀ s, (f s a bs[i]?).2.2 = some e) :
    (travO f s as bs).2.2 = some e := by
  induction as generalizing s bs i with
  | nil => simp at ha
  | cons x as ih =>
    rw [travO]
    cases i with
    | zero =>
      simp only [List.getElem?_cons_zero, Option.some.injEq] at ha
      subst ha
      have := hr s
      rw [← List.head?_eq_getElem?] at this
      rcases h : f s x bs.head? with ⟨s', a', y⟩
      rw [h] at this
      simp only at this
      subst this
      rfl
    | succ i =>
      have := hf s x bs.head?
      rcases h : f s x bs.head? with ⟨s', a', y⟩
      rw [h] at this
      rcases this with h1 | h1
      · simp only at h1
        subst h1
        refine ih s' bs.tail (i := i) (by simpa using ha) ?_
        intro s
        rw [List.getElem?_tail]
        exact hr s
      · simp only at h1
        subst h1
        rfl

section
variable {m o : OldMesh F} {v1 v2 : List (VObj F)}

omit [FArith F] in
theorem oldMergeMat_only (s : OldMergeSt F) (a : Mat F) (b : Option (Mat F)) :
    (oldMergeMat m o v1 v2 s a b).2.2 = none ∨
      (oldMergeMat m o v1 v2 s a b).2.2 = some .indexError := by
  cases b with
  | none => exact .inr rfl
  | some b => exact .inl rfl

omit [FArith F] in
theorem oldMergeLod_only (s : OldMergeSt F) (a : OldLod F) (b : Option (OldLod F)) :
    (oldMergeLod m o v1 v2 s a b).2.2 = none ∨
      (oldMergeLod m o v1 v2 s a b).2.2 = some .indexError :=
  travO_only oldMergeMat_only s a.materials _

omit [FArith F] in
theorem oldMergeGeom_only (s : OldMergeSt F) (a : OldGeom F) (b : Option (OldGeom F)) :
    (oldMergeGeom m o v1 v2 s a b).2.2 = none ∨
      (oldMergeGeom m o v1 v2 s a b).2.2 = some .indexError :=
  travO_only oldMergeLod_only s a.lods _

omit [FArith F] in
theorem travO_congr {σ α β : Type} {f : σ → α → Option β → σ × α × Option Err}
    {R : α → β → Prop} {S : β → β → Prop} {as : List α} {bs' bs : List β}
    (hR : List.Forall₂ R as bs') {pre : List β} (hpre : pre <+: bs) (hS : List.Forall₂ S bs' pre)
    (h : ∀ s a b' b, R a b' → S b' b → f s a (some b) = f s a (some b')) (s : σ) :
    travO f s as bs = travO f s as bs' := by
  induction hR generalizing s pre bs with
  | nil => rfl
  | @cons a b' as bs' hab _ ih =>
    cases hS with
    | @cons _ b _ pre hbb hS =>
      obtain ⟨suf, rfl⟩ := hpre
      rw [List.cons_append, travO, travO]
      simp only [List.head?_cons, List.tail_cons]
      rw [h s a b' b hab hbb]
      rcases f s a (some b') with ⟨s', a', _ | e⟩
      · simp only
        rw [ih (List.prefix_append pre suf) hS s']
      · rfl

end

end Bf2
