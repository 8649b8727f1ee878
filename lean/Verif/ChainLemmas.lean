import Verif.Chain
import Verif.ChainSpec
import Verif.AlgebraLemmas

/-!
# Lemmas on merging many meshes
-/

namespace Bf2

variable {F : Type}

/-! ## Which meshes still fit after a merge -/

theorem forall₂_split {α β : Type} {R : α → β → Prop} {a b : List α} {c d : List β}
    (hl : a.length = c.length) (h : List.Forall₂ R (a ++ b) (c ++ d)) :
    List.Forall₂ R a c ∧ List.Forall₂ R b d := by
  induction a generalizing c with
  | nil =>
    cases c with
    | nil => exact ⟨.nil, h⟩
    | cons _ _ => simp at hl
  | cons x a ih =>
    cases c with
    | nil => simp at hl
    | cons y c =>
      cases h with
      | cons h1 h2 =>
        obtain ⟨h3, h4⟩ := ih (by simpa using hl) h2
        exact ⟨.cons h1 h3, h4⟩

/-- Lists cut in the same way agree part by part. -/
theorem forall₂_parts {α β γ δ : Type} {R : α → β → Prop} (f : γ → List α) (g : δ → List β)
    {l : List γ} {r : List δ} (hl : List.Forall₂ (fun x y => (f x).length = (g y).length) l r)
    (h : List.Forall₂ R (l.flatMap f) (r.flatMap g)) :
    List.Forall₂ (fun x y => List.Forall₂ R (f x) (g y)) l r := by
  induction hl with
  | nil => exact .nil
  | cons h1 _ ih =>
    rw [List.flatMap_cons, List.flatMap_cons] at h
    obtain ⟨h3, h4⟩ := forall₂_split h1 h
    exact .cons h3 (ih h4)

theorem chain_lods {g g' : Geom F} (h : g'.shape = g.shape) :
    List.Forall₂ (fun l k : Lod F => l.materials.length = k.materials.length) g'.lods g.lods := by
  have h1 : g'.lods.map (fun l => l.materials.length) = g.lods.map fun l => l.materials.length := by
    have := congrArg (fun p => p.2.map Prod.snd) h
    simpa [Geom.shape, Function.comp_def] using this
  have hlen : g'.lods.length = g.lods.length := by simpa using congrArg List.length h1
  refine forall₂_of_getElem? hlen fun i a b ha hb => ?_
  have := congrArg (fun l => l[i]?) h1
  simpa [ha, hb] using this

theorem Merged.compatible {vs : Nat} {m o m' : Mesh F} (h : Merged vs m o m') (hc : Compatible m o)
    (hm : Inside vs m) (ho : Inside vs o) : Compatible m' m := by
  have hflat : List.Forall₂ MatAgree m'.mats m.mats := by
    refine forall₂_of_getElem? (h.length hc) fun i a' a ha' ha => ?_
    obtain ⟨b, hb⟩ := getElem?_lt rfl (l := o.mats) (i := i) (by
      rw [← hc.mats_length]; exact (List.getElem?_eq_some_iff.1 ha).1)
    obtain ⟨a1, h1, h2⟩ := h.mat hm ho ha hb
    rw [ha'] at h1
    simp only [Option.some.injEq] at h1
    subst h1
    have h3 := h2.fields
    exact ⟨by rw [h3], by rw [h3], by rw [h3], by rw [h3]⟩
  have hg : List.Forall₂ (fun g' g : Geom F => g'.shape = g.shape) m'.geoms m.geoms := by
    have hlen : m'.geoms.length = m.geoms.length := by simpa using congrArg List.length h.shape
    refine forall₂_of_getElem? hlen fun i a b ha hb => ?_
    have := congrArg (fun l => l[i]?) h.shape
    simpa [ha, hb] using this
  refine ⟨?_, by rw [h.rest]⟩
  have hparts : List.Forall₂ (fun g' g : Geom F => List.Forall₂ MatAgree g'.mats g.mats)
      m'.geoms m.geoms := by
    refine forall₂_parts Geom.mats Geom.mats (hg.imp fun g' g hs => ?_) hflat
    have := congrArg List.sum (show g'.lods.map (fun l => l.materials.length) =
      g.lods.map fun l => l.materials.length from by
        have := congrArg (fun p => p.2.map Prod.snd) hs
        simpa [Geom.shape, Function.comp_def] using this)
    simpa [Geom.mats, List.length_flatMap] using this
  have hboth : List.Forall₂ (fun g' g : Geom F => g'.shape = g.shape ∧
      List.Forall₂ MatAgree g'.mats g.mats) m'.geoms m.geoms := by
    have hlen := hg.length_eq
    refine forall₂_of_getElem? hlen fun i a b ha hb => ?_
    exact ⟨List.Forall₂.get hg (by exact (List.getElem?_eq_some_iff.1 ha).1)
        (by exact (List.getElem?_eq_some_iff.1 hb).1) |> fun q => by
          rw [List.getElem?_eq_some_iff] at ha hb
          obtain ⟨_, rfl⟩ := ha
          obtain ⟨_, rfl⟩ := hb
          exact q,
      List.Forall₂.get hparts (by exact (List.getElem?_eq_some_iff.1 ha).1)
        (by exact (List.getElem?_eq_some_iff.1 hb).1) |> fun q => by
          rw [List.getElem?_eq_some_iff] at ha hb
          obtain ⟨_, rfl⟩ := ha
          obtain ⟨_, rfl⟩ := hb
          exact q⟩
  exact hboth.imp fun g' g hgg =>
    forall₂_parts (fun l : Lod F => l.materials) (fun l : Lod F => l.materials) (chain_lods hgg.1) hgg.2

theorem all2_congr {α β : Type} {f : α → β → Except Err Bool} {R : α → α → Prop}
    (hf : ∀ a a' b, R a a' → f a b = f a' b) {l l' : List α} (h : List.Forall₂ R l l') (r : List β) :
    all2 f l r = all2 f l' r := by
  induction h generalizing r with
  | nil => rfl
  | cons h1 _ ih =>
    cases r with
    | nil => rfl
    | cons b r =>
      unfold all2
      rw [hf _ _ b h1, ih r]

/-- Meshes that fit each other fit the same meshes. -/
theorem canMerge_congr {m n : Mesh F} (h : Compatible m n) (o : Mesh F) : canMerge m o = canMerge n o := by
  have hmat : ∀ a a' b : Mat F, MatAgree a a' → canMergeMat a b = canMergeMat a' b := by
    intro a a' b hab
    unfold canMergeMat
    rw [hab.alphamode, hab.fxfile, hab.technique, hab.maps]
  have hlod : ∀ a a' b : Lod F, List.Forall₂ MatAgree a.materials a'.materials →
      canMergeLod a b = canMergeLod a' b := by
    intro a a' b hab
    unfold canMergeLod
    rw [hab.length_eq, all2_congr hmat hab]
  have hgeom : ∀ a a' b : Geom F,
      List.Forall₂ (fun l k : Lod F => List.Forall₂ MatAgree l.materials k.materials) a.lods a'.lods →
      canMergeGeom a b = canMergeGeom a' b := by
    intro a a' b hab
    unfold canMergeGeom
    rw [hab.length_eq, all2_congr hlod hab]
  unfold canMerge
  rw [h.geoms.length_eq, all2_congr hgeom h.geoms, h.vattrs]

theorem compatible_congr {m n o : Mesh F} (h : Compatible m n) (h' : Compatible n o) : Compatible m o := by
  rw [← canMerge_true, canMerge_congr h, canMerge_true]
  exact h'

/-! ## Columns -/

theorem column_some {i : Nat} {m : Mesh F} {a : Mat F} (h : m.mats[i]? = some a) (ms : List (Mesh F)) :
    column i (m :: ms) = (m, a) :: column i ms := by
  unfold column
  rw [List.filterMap_cons, h]
  rfl

theorem column_none {i : Nat} {ms : List (Mesh F)} (h : ∀ m ∈ ms, m.mats[i]? = none) :
    column i ms = [] := by
  unfold column
  rw [List.filterMap_eq_nil_iff]
  intro m hm
  rw [h m hm]
  rfl

/-- The indices of a column, the first ones moved up by `n`. -/
def stackFrom (n : Int) : List (Mesh F × Mat F) → List (List Int)
  | [] => []
  | p :: c => (indexData p.1 p.2).map (· + n) :: stackFrom (n + p.2.vnum) c

theorem stackFrom_get (n : Int) (c : List (Mesh F × Mat F)) (k : Nat) :
    (stackFrom n c)[k]? = c[k]?.map fun p =>
      (indexData p.1 p.2).map (· + (n + columnVerts (c.take k))) := by
  induction c generalizing n k with
  | nil => rfl
  | cons p c ih =>
    cases k with
    | zero => simp [stackFrom, columnVerts]
    | succ k =>
      simp only [stackFrom, List.getElem?_cons_succ, ih, List.take_succ_cons]
      have : ∀ q : List (Mesh F × Mat F), columnVerts (p :: q) = p.2.vnum + columnVerts q := by
        intro q; simp [columnVerts]
      rw [this, Int.add_assoc]

theorem stackFrom_length (n : Int) (c : List (Mesh F × Mat F)) : (stackFrom n c).length = c.length := by
  induction c generalizing n with
  | nil => rfl
  | cons p c ih => simp [stackFrom, ih]

theorem stackFrom_stacked (c : List (Mesh F × Mat F)) : StackedIndex c (stackFrom 0 c).flatten := by
  refine ⟨stackFrom 0 c, rfl, stackFrom_length 0 c, fun k p hp => ?_⟩
  rw [stackFrom_get, hp]
  simp

/-- A column is known from its materials only. -/
theorem stacked_unique {c : List (Mesh F × Mat F)} {l l' : List Int} (h : StackedIndex c l)
    (h' : StackedIndex c l') : l = l' := by
  obtain ⟨p, rfl, hl, hp⟩ := h
  obtain ⟨p', rfl, hl', hp'⟩ := h'
  congr 1
  apply List.ext_getElem?
  intro k
  rcases hc : c[k]? with _ | q
  · rw [List.getElem?_eq_none_iff] at hc
    rw [List.getElem?_eq_none (by omega), List.getElem?_eq_none (by omega)]
  · rw [hp k q hc, hp' k q hc]

/-! ## One step of the loop -/

/-- What one merge makes of the column at a place. -/
theorem Merged.column {vs : Nat} {m o m' : Mesh F} (h : Merged vs m o m') (hc : Compatible m o)
    (hm : Inside vs m) (ho : Inside vs o) (i : Nat) :
    (m.mats[i]? = none ∧ o.mats[i]? = none ∧ m'.mats[i]? = none) ∨
    ∃ a b a', m.mats[i]? = some a ∧ o.mats[i]? = some b ∧ m'.mats[i]? = some a' ∧
      MatMerged vs m o m' a b a' := by
  rcases ha : m.mats[i]? with _ | a
  · left
    rw [List.getElem?_eq_none_iff] at ha
    refine ⟨rfl, ?_, ?_⟩
    · rw [List.getElem?_eq_none_iff, ← hc.mats_length]; exact ha
    · rw [List.getElem?_eq_none_iff, h.length hc]; exact ha
  · right
    obtain ⟨b, hb⟩ := getElem?_lt rfl (l := o.mats) (i := i) (by
      rw [← hc.mats_length]; exact (List.getElem?_eq_some_iff.1 ha).1)
    obtain ⟨a', h1, h2⟩ := h.mat hm ho ha hb
    exact ⟨a, b, a', rfl, hb, h1, h2⟩

theorem Compatible.none_iff {m o : Mesh F} (h : Compatible m o) (i : Nat) :
    m.mats[i]? = none ↔ o.mats[i]? = none := by
  rw [List.getElem?_eq_none_iff, List.getElem?_eq_none_iff, h.mats_length]

theorem columnVerts_cons (p : Mesh F × Mat F) (c : List (Mesh F × Mat F)) :
    columnVerts (p :: c) = p.2.vnum + columnVerts c := by simp [columnVerts]

/-- Overflows of a chain: of the first merge, or of the chain after it. -/
theorem chain_step {vs : Nat} {m o m' : Mesh F} {os : List (Mesh F)} (h : Merged vs m o m')
    (hc : Compatible m o) (hm : Inside vs m) (ho : Inside vs o)
    (hos : ∀ x ∈ os, Compatible m x) (small : ¬ Overflows m o) :
    ChainOverflows (m :: o :: os) ↔ ChainOverflows (m' :: os) := by
  have key : ∀ i, (column i (m :: o :: os) = [] ∧ column i (m' :: os) = []) ∨
      ∃ a b a' c, m.mats[i]? = some a ∧ o.mats[i]? = some b ∧ MatMerged vs m o m' a b a' ∧
        column i (m :: o :: os) = (m, a) :: (o, b) :: c ∧ column i (m' :: os) = (m', a') :: c := by
    intro i
    rcases h.column hc hm ho i with ⟨h1, h2, h3⟩ | ⟨a, b, a', h1, h2, h3, h4⟩
    · left
      have hx : ∀ x ∈ os, x.mats[i]? = none := fun x hx => ((hos x hx).none_iff i).1 h1
      refine ⟨column_none ?_, column_none ?_⟩
      · intro x hx'
        simp only [List.mem_cons] at hx'
        rcases hx' with rfl | rfl | hx'
        · exact h1
        · exact h2
        · exact hx x hx'
      · intro x hx'
        simp only [List.mem_cons] at hx'
        rcases hx' with rfl | hx'
        · exact h3
        · exact hx x hx'
    · right
      exact ⟨a, b, a', column i os, h1, h2, h4, by rw [column_some h1, column_some h2],
        by rw [column_some h3]⟩
  have hv : ∀ {a b a' : Mat F}, MatMerged vs m o m' a b a' → a'.vnum = a.vnum + b.vnum := by
    intro a b a' hh
    exact congrArg Mat.vnum hh.fields
  constructor
  · rintro ⟨i, k, p, v, hk, hp, hv1, hv2⟩
    rcases key i with ⟨h1, -⟩ | ⟨a, b, a', c, ha, hb, h2, h3, h4⟩
    · rw [h1] at hp; simp at hp
    · rw [h3] at hp hv2
      match k, hk with
      | 1, _ =>
        simp only [List.getElem?_cons_succ, List.getElem?_cons_zero, Option.some.injEq] at hp
        subst hp
        refine absurd ⟨i, a, b, v, ha, hb, hv1, ?_⟩ small
        simpa [columnVerts] using hv2
      | k + 2, _ =>
        refine ⟨i, k + 1, p, v, Nat.succ_pos k, ?_, hv1, ?_⟩
        · rw [h4]; simpa using hp
        · rw [h4, List.take_succ_cons, columnVerts_cons]
          rw [List.take_succ_cons, List.take_succ_cons, columnVerts_cons, columnVerts_cons] at hv2
          have := hv h2
          simp only at hv2 ⊢
          omega
  · rintro ⟨i, k, p, v, hk, hp, hv1, hv2⟩
    rcases key i with ⟨-, h1⟩ | ⟨a, b, a', c, ha, hb, h2, h3, h4⟩
    · rw [h1] at hp; simp at hp
    · rw [h4] at hp hv2
      match k, hk with
      | k + 1, _ =>
        refine ⟨i, k + 2, p, v, by omega, ?_, hv1, ?_⟩
        · rw [h3]; simpa using hp
        · rw [h3, List.take_succ_cons, List.take_succ_cons, columnVerts_cons, columnVerts_cons]
          rw [List.take_succ_cons, columnVerts_cons] at hv2
          have := hv h2
          simp only at hv2 ⊢
          omega

theorem overflows_chain {m o : Mesh F} {os : List (Mesh F)} (h : Overflows m o) :
    ChainOverflows (m :: o :: os) := by
  obtain ⟨i, a, b, v, ha, hb, hv, hh⟩ := h
  refine ⟨i, 1, (o, b), v, Nat.one_pos, ?_, hv, ?_⟩
  · rw [column_some ha, column_some hb]; rfl
  · rw [column_some ha, List.take_succ_cons]
    simpa [columnVerts] using hh

theorem not_overflows_nil (m : Mesh F) : ¬ ChainOverflows [m] := by
  rintro ⟨i, k, p, v, hk, hp, -, -⟩
  have : (column i [m]).length ≤ 1 := by
    unfold column
    exact le_trans (List.length_filterMap_le _ _) (by simp)
  rw [List.getElem?_eq_none (by omega)] at hp
  simp at hp

/-- What the whole loop leaves. -/
structure Chained (vs : Nat) (m : Mesh F) (os : List (Mesh F)) (m' : Mesh F) : Prop where
  rest : m' = { m with
    geoms := m'.geoms, vertices := m'.vertices, index := m'.index, vertnum := m'.vertnum,
    indexnum := m'.indexnum }
  shape : m'.geoms.map Geom.shape = m.geoms.map Geom.shape
  readable : Readable vs m'
  tiled : os ≠ [] → TiledVerts vs m' ∧ TiledIndex m' ∧ m'.vertnum = (m'.mats.map Mat.vnum).sum ∧
    m'.indexnum = (m'.mats.map Mat.inum).sum
  length : m'.mats.length = m.mats.length
  mats : ∀ (i : Nat) a, m.mats[i]? = some a → ∃ a', m'.mats[i]? = some a' ∧
    a' = { a with
      vnum := columnVerts (column i (m :: os))
      inum := ((column i (m :: os)).map fun p => p.2.inum).sum
      vstart := a'.vstart, istart := a'.istart } ∧
    vertexData vs m' a' = (column i (m :: os)).flatMap (fun p => vertexData vs p.1 p.2) ∧
    indexData m' a' = (stackFrom 0 (column i (m :: os))).flatten

theorem chain_ok {vs : Nat} {m : Mesh F} {os : List (Mesh F)} (hm : Readable vs m)
    (hos : ∀ o ∈ os, Readable vs o) (hc : ∀ o ∈ os, Compatible m o)
    (small : ¬ ChainOverflows (m :: os)) :
    ∃ m', mergeEach m os = (m', none) ∧ Chained vs m os m' := by
  induction os generalizing m with
  | nil =>
    refine ⟨m, rfl, ⟨rfl, rfl, hm, fun h => absurd rfl h, rfl, fun i a ha => ⟨a, ha, ?_, ?_, ?_⟩⟩⟩
    · rw [column_some ha]; simp [column, columnVerts]
    · rw [column_some ha]; simp [column]
    · rw [column_some ha]; simp [column, stackFrom]
  | cons o os ih =>
    obtain ⟨ix, hix⟩ := hm.many
    obtain ⟨ox, hox⟩ := (hos o (by simp)).many
    have ho := (hos o (by simp)).inside
    have hco := hc o (by simp)
    have hsmall : ¬ Overflows m o := fun h => small (overflows_chain h)
    obtain ⟨m1, h1, hM⟩ := merge_ok hco hm.inside ho hix hox hsmall
    have ht := hM.tiled hm.inside ho
    have hcm : Compatible m1 m := hM.compatible hco hm.inside ho
    have hr1 : Readable vs m1 := ⟨ht.1.inside' ht.2, _, hM.index⟩
    obtain ⟨m', h2, hC⟩ := ih (m := m1) hr1 (fun x hx => hos x (by simp [hx]))
      (fun x hx => compatible_congr hcm (hc x (by simp [hx])))
      (fun h => small ((chain_step hM hco hm.inside ho (fun x hx => hc x (by simp [hx])) hsmall).2 h))
    refine ⟨m', ?_, ⟨?_, ?_, hC.readable, fun _ => ?_, by rw [hC.length, hM.length hco], ?_⟩⟩
    · unfold mergeEach
      rw [h1]
      exact h2
    · have e1 := hC.rest
      have e2 := hM.rest
      rw [e1]
      rw [e2]
    · rw [hC.shape, hM.shape]
    · by_cases hn : os = []
      · subst hn
        have : m' = m1 := by
          have : mergeEach m1 [] = (m1, none) := rfl
          rw [this] at h2
          simpa using h2.symm
        subst this
        refine ⟨ht.1, ht.2, ?_, ?_⟩
        · rw [hM.vertnum, hM.mats]; exact (retile_vnum _ _ _).symm ▸ rfl
        · rw [hM.indexnum, hM.mats]; exact (retile_inum _ _ _).symm ▸ rfl
      · exact hC.tiled hn
    · intro i a ha
      rcases hM.column hco hm.inside ho i with ⟨h3, -, -⟩ | ⟨a0, b, a1, h3, h4, h5, h6⟩
      · rw [ha] at h3; simp at h3
      · rw [ha] at h3
        simp only [Option.some.injEq] at h3
        subst h3
        obtain ⟨a', h7, h8, h9, h10⟩ := hC.mats i a1 h5
        rw [column_some h5] at h8 h9 h10
        have hf := h6.fields
        refine ⟨a', h7, ?_, ?_, ?_⟩
        · rw [column_some ha, column_some h4]
          simp only [columnVerts, List.map_cons, List.sum_cons] at h8 ⊢
          have e1 : a1.vnum = a.vnum + b.vnum := congrArg Mat.vnum hf
          have e2 : a1.inum = a.inum + b.inum := congrArg Mat.inum hf
          rw [e1, e2, Int.add_assoc, Int.add_assoc] at h8
          rw [h8]
          rw [hf]
        · rw [h9, column_some ha, column_some h4, List.flatMap_cons, List.flatMap_cons, List.flatMap_cons]
          simp only
          rw [h6.verts, List.append_assoc]
        · rw [h10, column_some ha, column_some h4]
          simp only [stackFrom, List.flatten_cons, Int.add_zero, Int.zero_add]
          have e1 : a1.vnum = a.vnum + b.vnum := congrArg Mat.vnum hf
          rw [h6.index, e1]
          simp only [List.map_id', List.append_assoc]

theorem chain_overflow {vs : Nat} {m : Mesh F} {os : List (Mesh F)} (hm : Readable vs m)
    (hos : ∀ o ∈ os, Readable vs o) (hc : ∀ o ∈ os, Compatible m o)
    (big : ChainOverflows (m :: os)) : (mergeEach m os).2 = some .overflowError := by
  induction os generalizing m with
  | nil => exact absurd big (not_overflows_nil m)
  | cons o os ih =>
    obtain ⟨ix, hix⟩ := hm.many
    obtain ⟨ox, hox⟩ := (hos o (by simp)).many
    have ho := (hos o (by simp)).inside
    have hco := hc o (by simp)
    unfold mergeEach
    by_cases hsmall : Overflows m o
    · have := merge_overflow hco hm.inside ho hix hox hsmall
      rcases hmm : merge m o with ⟨m1, r⟩
      rw [hmm] at this
      simp only at this
      rw [this]
    · obtain ⟨m1, h1, hM⟩ := merge_ok hco hm.inside ho hix hox hsmall
      have ht := hM.tiled hm.inside ho
      have hcm : Compatible m1 m := hM.compatible hco hm.inside ho
      have hr1 : Readable vs m1 := ⟨ht.1.inside' ht.2, _, hM.index⟩
      rw [h1]
      exact ih hr1 (fun x hx => hos x (by simp [hx]))
        (fun x hx => compatible_congr hcm (hc x (by simp [hx])))
        ((chain_step hM hco hm.inside ho (fun x hx => hc x (by simp [hx])) hsmall).1 big)

/-! ## Corners -/

theorem corners_stack {vs : Nat} (c : List (Mesh F × Mat F)) (n : Int) (pre : List F) (hn : 0 ≤ n)
    (hpre : pre.length = n.toNat * vs)
    (hin : ∀ p ∈ c, VertsInside vs p.1 p.2)
    (hix : ∀ p ∈ c, ∀ v ∈ indexData p.1 p.2, 0 ≤ v ∧ v < p.2.vnum) :
    (stackFrom n c).flatten.map (corner vs (pre ++ c.flatMap fun p => vertexData vs p.1 p.2)) =
      c.flatMap fun p => (indexData p.1 p.2).map (corner vs (vertexData vs p.1 p.2)) := by
  induction c generalizing n pre with
  | nil => rfl
  | cons p c ih =>
    have hp := hin p (by simp)
    have hlen := vertexData_length vs p.1 p.2 hp
    rw [stackFrom, List.flatten_cons, List.map_append, List.flatMap_cons, List.flatMap_cons,
      List.map_map]
    congr 1
    · apply List.map_congr_left
      intro v hv
      obtain ⟨h0, h1⟩ := hix p (by simp) v hv
      show corner vs _ (v + n) = _
      rw [corner_right hpre hn h0, corner_left hlen h0 h1]
    · rw [← List.append_assoc]
      refine ih (n + p.2.vnum) (pre ++ vertexData vs p.1 p.2) (by have := hp.2.1; omega) ?_
        (fun q hq => hin q (by simp [hq])) fun q hq => hix q (by simp [hq])
      rw [List.length_append, hpre, hlen, Int.toNat_add hn hp.2.1, Nat.add_mul]

theorem column_mem {i : Nat} {ms : List (Mesh F)} {p : Mesh F × Mat F} (h : p ∈ column i ms) :
    p.1 ∈ ms ∧ p.1.mats[i]? = some p.2 := by
  unfold column at h
  obtain ⟨m, hm, h1⟩ := List.mem_filterMap.1 h
  obtain ⟨a, ha, rfl⟩ := Option.map_eq_some_iff.1 h1
  exact ⟨hm, ha⟩

/-! ## Copies -/

theorem compatible_refl (m : Mesh F) : Compatible m m :=
  ⟨List.forall₂_same.2 fun _ _ => List.forall₂_same.2 fun _ _ => List.forall₂_same.2 fun _ _ =>
    ⟨rfl, rfl, rfl, rfl⟩, rfl⟩

theorem column_replicate {i : Nat} {m : Mesh F} {a : Mat F} (h : m.mats[i]? = some a) (n : Nat) :
    column i (List.replicate n m) = List.replicate n (m, a) := by
  induction n with
  | zero => rfl
  | succ n ih => rw [List.replicate_succ, column_some h, ih, List.replicate_succ]

theorem columnVerts_replicate (m : Mesh F) (a : Mat F) (n : Nat) :
    columnVerts (List.replicate n (m, a)) = n * a.vnum := by
  induction n with
  | zero => simp [columnVerts]
  | succ n ih => rw [List.replicate_succ, columnVerts_cons, ih]; push_cast; ring

theorem copies_overflow {vs : Nat} {m : Mesh F} (h : Inside vs m) {n : Nat} (hn : 0 < n) :
    ChainOverflows (m :: List.replicate n m) ↔
      ∃ a ∈ m.mats, ∃ v ∈ indexData m a, 65535 < v + n * a.vnum := by
  rw [← List.replicate_succ]
  constructor
  · rintro ⟨i, k, p, v, hk, hp, hv, hb⟩
    obtain ⟨-, ha⟩ := column_mem (List.mem_of_getElem? hp)
    have hpm : p.1 = m := List.eq_of_mem_replicate (column_mem (List.mem_of_getElem? hp)).1
    rw [hpm] at ha hv
    rw [column_replicate ha] at hb hp
    have hkn : k < n + 1 := by
      have := (List.getElem?_eq_some_iff.1 hp).1
      simpa using this
    rw [List.take_replicate, columnVerts_replicate, Nat.min_eq_left (by omega)] at hb
    refine ⟨p.2, List.mem_of_getElem? ha, v, hv, ?_⟩
    have h0 := (h.verts p.2 (List.mem_of_getElem? ha)).2.1
    have : (k : Int) * p.2.vnum ≤ n * p.2.vnum := Int.mul_le_mul_of_nonneg_right (by omega) h0
    omega
  · rintro ⟨a, ha, v, hv, hb⟩
    obtain ⟨i, hi⟩ := List.getElem?_of_mem ha
    refine ⟨i, n, (m, a), v, hn, ?_, hv, ?_⟩
    · rw [column_replicate hi]; simp
    · rw [column_replicate hi, List.take_replicate, columnVerts_replicate, Nat.min_eq_left (by omega)]
      exact hb

/-! ## Meshes that do not fit -/

theorem chain_filter {vs : Nat} {m : Mesh F} {os : List (Mesh F)} (hm : Readable vs m)
    (hos : ∀ o ∈ os, canMerge m o = .ok true → Readable vs o)
    (hq : ∀ o ∈ os, ∃ b, canMerge m o = .ok b) (fits : Mesh F → Bool)
    (hfits : ∀ o ∈ os, fits o = true ↔ canMerge m o = .ok true) :
    mergeEach m os = mergeEach m (os.filter fits) := by
  induction os generalizing m with
  | nil => rfl
  | cons o os ih =>
    rw [List.filter_cons]
    obtain ⟨b, hb⟩ := hq o (by simp)
    cases b with
    | false =>
      have hf : fits o = false := by
        rcases hfo : fits o with _ | _
        · rfl
        · have := (hfits o (by simp)).1 hfo
          rw [hb] at this; simp at this
      rw [hf]
      have hmerge : merge m o = (m, .ok .notImplemented) := by unfold merge; rw [hb]
      rw [mergeEach, hmerge]
      exact ih hm (fun x hx => hos x (by simp [hx])) (fun x hx => hq x (by simp [hx]))
        fun x hx => hfits x (by simp [hx])
    | true =>
      have hf : fits o = true := (hfits o (by simp)).2 hb
      rw [hf]
      simp only [if_true]
      have hco := (canMerge_true m o).1 hb
      have hro := hos o (by simp) hb
      obtain ⟨ix, hix⟩ := hm.many
      obtain ⟨ox, hox⟩ := hro.many
      rw [mergeEach, mergeEach]
      by_cases hsmall : Overflows m o
      · have := merge_overflow hco hm.inside hro.inside hix hox hsmall
        rcases hmm : merge m o with ⟨m1, r⟩
        rw [hmm] at this
        simp only at this
        rw [this]
      · obtain ⟨m1, h1, hM⟩ := merge_ok hco hm.inside hro.inside hix hox hsmall
        have ht := hM.tiled hm.inside hro.inside
        have hcm : Compatible m1 m := hM.compatible hco hm.inside hro.inside
        rw [h1]
        simp only
        exact ih ⟨ht.1.inside' ht.2, _, hM.index⟩
          (fun x hx h => hos x (by simp [hx]) (by rw [← canMerge_congr hcm]; exact h))
          (fun x hx => by rw [canMerge_congr hcm]; exact hq x (by simp [hx]))
          fun x hx => by rw [canMerge_congr hcm]; exact hfits x (by simp [hx])

end Bf2
