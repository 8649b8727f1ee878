import Verif.OldChain
import Verif.OldChainSpec
import Verif.OldOrderLemmas
import Verif.OldJoinLemmas
import Verif.MergeLemmas
import Verif.Props.OldMerge

/-!
# Lemmas on merging many meshes with the deprecated module
-/

namespace Bf2

variable {F : Type}

/-! ## What stays -/

theorem GeomsStay.refl (m : OldMesh F) : GeomsStay m m :=
  List.forall₂_same.2 fun _ _ => ⟨rfl, List.forall₂_same.2 fun _ _ => ⟨rfl, rfl⟩⟩

theorem LodStays.trans {a b c : OldLod F} (h : LodStays a b) (h' : LodStays b c) : LodStays a c := by
  refine ⟨h'.mats.trans h.mats, ?_⟩
  have e1 := h.rest
  have e2 := h'.rest
  rw [← e2] at e1
  exact e1

theorem GeomsStay.trans {a b c : OldMesh F} (h : GeomsStay a b) (h' : GeomsStay b c) : GeomsStay a c :=
  (forall₂_comp h h').imp fun _ _ ⟨_, h, h'⟩ =>
    ⟨h'.1.trans h.1, (forall₂_comp h.2 h'.2).imp fun _ _ ⟨_, h, h'⟩ => h.trans h'⟩

theorem GeomsStay.counts {a b : OldMesh F} (h : GeomsStay a b) : OldSameCounts a b :=
  h.imp fun _ _ h => h.2.imp fun _ _ h => h.mats.symm

/-! ## Columns -/

theorem oldColumn_some {i : Nat} {m : OldMesh F} {a : Mat F} (h : m.mats[i]? = some a)
    (ms : List (OldMesh F)) : oldColumn i (m :: ms) = (m, a) :: oldColumn i ms := by
  unfold oldColumn
  rw [List.filterMap_cons, h]
  rfl

theorem oldColumn_mem {i : Nat} {ms : List (OldMesh F)} {p : OldMesh F × Mat F}
    (h : p ∈ oldColumn i ms) : p.1 ∈ ms ∧ p.1.mats[i]? = some p.2 := by
  unfold oldColumn at h
  obtain ⟨m, hm, h1⟩ := List.mem_filterMap.1 h
  obtain ⟨a, ha, rfl⟩ := Option.map_eq_some_iff.1 h1
  exact ⟨hm, ha⟩

theorem oldColumnVerts_cons (p : OldMesh F × Mat F) (c : List (OldMesh F × Mat F)) :
    oldColumnVerts (p :: c) = p.2.vnum + oldColumnVerts c := by simp [oldColumnVerts]

/-- The indices of a column, the first ones moved up by `n`. -/
def oldStack (n : Int) : List (OldMesh F × Mat F) → List (List Int)
  | [] => []
  | p :: c => (p.1.idata p.2).map (· + n) :: oldStack (n + p.2.vnum) c

theorem oldStack_get (n : Int) (c : List (OldMesh F × Mat F)) (k : Nat) :
    (oldStack n c)[k]? = c[k]?.map fun p =>
      (p.1.idata p.2).map (· + (n + oldColumnVerts (c.take k))) := by
  induction c generalizing n k with
  | nil => rfl
  | cons p c ih =>
    cases k with
    | zero => simp [oldStack, oldColumnVerts]
    | succ k =>
      simp only [oldStack, List.getElem?_cons_succ, ih, List.take_succ_cons]
      rw [oldColumnVerts_cons, Int.add_assoc]

theorem oldStack_length (n : Int) (c : List (OldMesh F × Mat F)) : (oldStack n c).length = c.length := by
  induction c generalizing n with
  | nil => rfl
  | cons p c ih => simp [oldStack, ih]

theorem oldStack_stacked (c : List (OldMesh F × Mat F)) : OldStacked c (oldStack 0 c).flatten := by
  refine ⟨oldStack 0 c, rfl, oldStack_length 0 c, fun k p hp => ?_⟩
  rw [oldStack_get, hp]
  simp

theorem OldStacked.eq {c : List (OldMesh F × Mat F)} {l : List Int} (h : OldStacked c l) :
    l = (oldStack 0 c).flatten := by
  obtain ⟨p, rfl, hl, hp⟩ := h
  congr 1
  apply List.ext_getElem?
  intro k
  have hs := oldStack_length 0 c
  rcases hc : c[k]? with _ | q
  · rw [List.getElem?_eq_none_iff] at hc
    rw [List.getElem?_eq_none (by omega), List.getElem?_eq_none (by omega)]
  · rw [hp k q hc, oldStack_get, hc]
    simp

/-! ## One step -/

theorem sum_zipped {as bs cs : List (Mat F)} (f : Mat F → Int) (h1 : cs.length = as.length)
    (h2 : bs.length = as.length)
    (h : ∀ (i : Nat) a b, as[i]? = some a → bs[i]? = some b → ∃ c, cs[i]? = some c ∧ f c = f a + f b) :
    (cs.map f).sum = (as.map f).sum + (bs.map f).sum := by
  induction as generalizing bs cs with
  | nil =>
    rw [List.length_nil, List.length_eq_zero_iff] at h1 h2
    subst h1 h2
    rfl
  | cons a as ih =>
    match bs, cs, h1, h2 with
    | b :: bs, c :: cs, h1, h2 =>
      obtain ⟨c', e, e'⟩ := h 0 a b rfl rfl
      cases e
      have := ih (bs := bs) (cs := cs) (Nat.succ.inj h1) (Nat.succ.inj h2) fun i a b ha hb =>
        h (i + 1) a b ha hb
      simp only [List.map_cons, List.sum_cons]
      omega

/-- What one merge leaves. -/
structure OldChainStep (vs : Nat) (m o m' : OldMesh F) : Prop where
  order : OldOrderly vs m'
  format : OldSameFormat m m'
  geomnum : m'.geomnum = m.geomnum
  geoms : GeomsStay m m'
  vertnum : m'.vertnum = m.vertnum + o.vertnum
  indexnum : m'.indexnum = m.indexnum + o.indexnum
  mats : ∀ (i : Nat) a b, m.mats[i]? = some a → o.mats[i]? = some b →
    ∃ a', m'.mats[i]? = some a' ∧ OldMatMerged vs m o m' a b a'

theorem oldMerge_step [FArith F] [LawfulLt F] {vs : Nat} {m o : OldMesh F}
    (h : OldOrderly vs m) (h' : OldOrderly vs o) (attrs : m.vattrs = o.vattrs)
    (static : m.kind.isStatic = true ∨ o.kind.isStatic = true) (counts : OldSameCounts m o)
    (small : m.vertices.length + o.vertices.length ≤ 2 ^ 53) :
    ∃ m', oldMerge m o = (m', none) ∧ OldChainStep vs m o m' := by
  obtain ⟨p, hp⟩ := h.pos
  have ids : ∀ x : OldMesh F, OldOrderly vs x → x.ids.length * vs = x.vertices.length := by
    intro x hx
    obtain ⟨n, hn, hl⟩ := hx.packed.num
    rw [hx.tiled.ids hn, List.length_range, hl]
  have hsum : (m.ids.length + o.ids.length) * vs = m.vertices.length + o.vertices.length := by
    rw [Nat.add_mul, ids m h, ids o h']
  obtain ⟨m', h1, h2, -, ht, hti, h3, h4⟩ := C91_merge_concatenates (p := p)
    ⟨h.packed, h'.packed, attrs, static, counts, h.tiled.exist, h'.tiled.exist, h.tiledIndex.exist,
      h'.tiledIndex.exist⟩ hp h.bounds (by rw [hsum]; exact small)
  obtain ⟨-, hord, hfmt⟩ := h.merge h' attrs static counts small
  rw [h1] at hord hfmt
  have hgeoms : GeomsStay m m' := h3.imp fun _ _ e => ⟨e.1, e.2.imp fun _ _ e => ⟨e.mats, e.rest⟩⟩
  have hl1 : m'.mats.length = m.mats.length := hgeoms.counts.mats_length.symm
  have hl2 : o.mats.length = m.mats.length := counts.mats_length.symm
  refine ⟨m', h1, hord, hfmt, by rw [h2], hgeoms, ?_, ?_, fun i a b ha hb => ?_⟩
  · rw [ht.total, h.tiled.total, h'.tiled.total]
    refine sum_zipped Mat.vnum hl1 hl2 fun i a b ha hb => ?_
    obtain ⟨a', e1, e2, -⟩ := h4 i a b ha hb
    exact ⟨a', e1, congrArg Mat.vnum e2.fields⟩
  · rw [← hord.wf.index, ← h.wf.index, ← h'.wf.index, hti.total, h.tiledIndex.total, h'.tiledIndex.total]
    refine sum_zipped Mat.inum hl1 hl2 fun i a b ha hb => ?_
    obtain ⟨a', e1, e2, -⟩ := h4 i a b ha hb
    exact ⟨a', e1, congrArg Mat.inum e2.fields⟩
  · obtain ⟨a', e1, e2, -⟩ := h4 i a b ha hb
    exact ⟨a', e1, e2⟩

theorem OldOrderly.floats {vs : Nat} {m : OldMesh F} (h : OldOrderly vs m) :
    (m.vertices.length : Int) = m.vertnum * vs := h.packed.count

/-! ## The loop -/

/-- What the whole loop leaves. -/
structure OldChained (vs : Nat) (m : OldMesh F) (os : List (OldMesh F)) (m' : OldMesh F) : Prop where
  order : OldOrderly vs m'
  format : OldSameFormat m m'
  geomnum : m'.geomnum = m.geomnum
  geoms : GeomsStay m m'
  vertnum : m'.vertnum = m.vertnum + (os.map OldMesh.vertnum).sum
  indexnum : m'.indexnum = m.indexnum + (os.map OldMesh.indexnum).sum
  mats : ∀ (i : Nat) a, m.mats[i]? = some a → ∃ a', m'.mats[i]? = some a' ∧
    a' = { a with
      vnum := oldColumnVerts (oldColumn i (m :: os))
      inum := ((oldColumn i (m :: os)).map fun p => p.2.inum).sum
      vstart := a'.vstart, istart := a'.istart, mmin := a'.mmin, mmax := a'.mmax } ∧
    m'.vdata vs a' = (oldColumn i (m :: os)).flatMap (fun p => p.1.vdata vs p.2) ∧
    m'.idata a' = (oldStack 0 (oldColumn i (m :: os))).flatten

theorem oldChain_ok [FArith F] [LawfulLt F] {vs : Nat} {m : OldMesh F} {os : List (OldMesh F)}
    (h : OldChainable vs m os) : ∃ m', oldMergeEach m os = (m', none) ∧ OldChained vs m os m' := by
  induction os generalizing m with
  | nil =>
    refine ⟨m, rfl, h.first, ⟨rfl, rfl, rfl, rfl, rfl, rfl, rfl, rfl⟩, rfl, .refl m, by simp, by simp,
      fun i a ha => ⟨a, ha, ?_, ?_, ?_⟩⟩
    · rw [oldColumn_some ha]; simp [oldColumn, oldColumnVerts]
    · rw [oldColumn_some ha]; simp [oldColumn]
    · rw [oldColumn_some ha]; simp [oldColumn, oldStack]
  | cons o os ih =>
    have hs := h.small
    rw [List.map_cons, List.sum_cons] at hs
    have ho := h.others o (by simp)
    have hc := h.counts o (by simp)
    obtain ⟨m1, h1, st⟩ := oldMerge_step h.first ho (h.attrs o (by simp)) (h.static o (by simp)) hc
      (by omega)
    have hlen : m1.vertices.length = m.vertices.length + o.vertices.length := by
      have e1 := st.order.floats
      have e2 := h.first.floats
      have e3 := ho.floats
      rw [st.vertnum, Int.add_mul] at e1
      omega
    obtain ⟨m', h2, hC⟩ := ih (m := m1) ⟨st.order, fun x hx => h.others x (by simp [hx]),
      fun x hx => by rw [st.format.vattrs]; exact h.attrs x (by simp [hx]),
      fun x hx => by rw [st.format.kind]; exact h.static x (by simp [hx]),
      fun x hx => st.geoms.counts.symm.trans (h.counts x (by simp [hx])), by omega⟩
    refine ⟨m', ?_, hC.order, st.format.trans hC.format, hC.geomnum.trans st.geomnum,
      st.geoms.trans hC.geoms, ?_, ?_, fun i a ha => ?_⟩
    · unfold oldMergeEach
      rw [h1]
      exact h2
    · rw [hC.vertnum, st.vertnum, List.map_cons, List.sum_cons, Int.add_assoc]
    · rw [hC.indexnum, st.indexnum, List.map_cons, List.sum_cons, Int.add_assoc]
    · obtain ⟨b, hb⟩ := getElem?_lt rfl (l := o.mats) (i := i) (by
        rw [← hc.mats_length]; exact (List.getElem?_eq_some_iff.1 ha).1)
      obtain ⟨a1, h5, h6⟩ := st.mats i a b ha hb
      obtain ⟨a', h7, h8, h9, h10⟩ := hC.mats i a1 h5
      rw [oldColumn_some h5] at h8 h9 h10
      have hf := h6.fields
      have e1 : a1.vnum = a.vnum + b.vnum := congrArg Mat.vnum hf
      have e2 : a1.inum = a.inum + b.inum := congrArg Mat.inum hf
      refine ⟨a', h7, ?_, ?_, ?_⟩
      · rw [oldColumn_some ha, oldColumn_some hb]
        simp only [oldColumnVerts, List.map_cons, List.sum_cons] at h8 ⊢
        rw [e1, e2, Int.add_assoc, Int.add_assoc] at h8
        rw [h8]
        rw [hf]
      · rw [h9, oldColumn_some ha, oldColumn_some hb, List.flatMap_cons, List.flatMap_cons,
          List.flatMap_cons]
        simp only
        rw [h6.verts, List.append_assoc]
      · rw [h10, oldColumn_some ha, oldColumn_some hb]
        simp only [oldStack, List.flatten_cons, Int.add_zero, Int.zero_add]
        rw [h6.index, e1]
        simp only [List.map_id', List.append_assoc]

theorem oldMergeEach_append [FArith F] (m : OldMesh F) (os os' : List (OldMesh F)) :
    oldMergeEach m (os ++ os') =
      match oldMergeEach m os with
      | (m', some e) => (m', some e)
      | (m', none) => oldMergeEach m' os' := by
  induction os generalizing m with
  | nil => rfl
  | cons o os ih =>
    rw [List.cons_append, oldMergeEach, oldMergeEach]
    rcases oldMerge m o with ⟨m1, _ | e⟩
    · exact ih m1
    · rfl

/-! ## Corners -/

theorem OldOrderly.vdata_length {vs : Nat} {m : OldMesh F} (h : OldOrderly vs m) {a : Mat F}
    (ha : a ∈ m.mats) : (m.vdata vs a).length = a.vnum.toNat * vs := by
  obtain ⟨n, hn, hl⟩ := h.packed.num
  obtain ⟨h1, h2, h3⟩ := h.tiled.exist a ha
  obtain ⟨s, hs⟩ := Int.eq_ofNat_of_zero_le h1
  obtain ⟨k, hk⟩ := Int.eq_ofNat_of_zero_le h2
  unfold OldMesh.vdata block
  rw [hs, hk, List.length_take, List.length_drop, hl]
  have e1 : ((s : Int) * vs).toNat = s * vs := by
    rw [← Int.natCast_mul, Int.toNat_natCast]
  have e2 : ((k : Int) * vs).toNat = k * vs := by
    rw [← Int.natCast_mul, Int.toNat_natCast]
  rw [e1, e2, Int.toNat_natCast]
  have : (s + k) * vs ≤ n * vs := Nat.mul_le_mul_right _ (by omega)
  rw [Nat.add_mul] at this
  omega

theorem oldCorners_stack {vs : Nat} (c : List (OldMesh F × Mat F)) (n : Int) (pre : List F) (hn : 0 ≤ n)
    (hpre : pre.length = n.toNat * vs)
    (hin : ∀ p ∈ c, OldOrderly vs p.1 ∧ p.2 ∈ p.1.mats)
    (hix : ∀ p ∈ c, ∀ v ∈ p.1.idata p.2, 0 ≤ v ∧ v < p.2.vnum) :
    (oldStack n c).flatten.map (corner vs (pre ++ c.flatMap fun p => p.1.vdata vs p.2)) =
      c.flatMap fun p => (p.1.idata p.2).map (corner vs (p.1.vdata vs p.2)) := by
  induction c generalizing n pre with
  | nil => rfl
  | cons p c ih =>
    obtain ⟨hp1, hp2⟩ := hin p (by simp)
    have hlen := hp1.vdata_length hp2
    have h0 := hp1.tiled.nonneg _ hp2
    rw [oldStack, List.flatten_cons, List.map_append, List.flatMap_cons, List.flatMap_cons,
      List.map_map]
    congr 1
    · apply List.map_congr_left
      intro v hv
      obtain ⟨h0, h1⟩ := hix p (by simp) v hv
      show corner vs _ (v + n) = _
      rw [corner_right hpre hn h0, corner_left hlen h0 h1]
    · rw [← List.append_assoc]
      refine ih (n + p.2.vnum) (pre ++ p.1.vdata vs p.2) (by omega) ?_
        (fun q hq => hin q (by simp [hq])) fun q hq => hix q (by simp [hq])
      rw [List.length_append, hpre, hlen, Int.toNat_add hn h0, Nat.add_mul]

/-! ## Saving -/

theorem isLong_under {pl : Plat} {v w : Int} (h : IsLong pl w) (h0 : 0 ≤ v) (h1 : v ≤ w) :
    IsLong pl v := by
  unfold IsLong at *
  split <;> rename_i hb
  · rw [if_pos hb] at h; omega
  · rw [if_neg hb] at h; omega

theorem OldTiledIndex.mem {m : OldMesh F} (h : OldTiledIndex m) {v : Int} :
    v ∈ m.index ↔ ∃ a ∈ m.mats, v ∈ m.idata a := by
  have h1 := blocks_drop m.index 1 Mat.istart Mat.inum m.mats 0 (by omega) h.nonneg
    (fun i a hi => by rw [h.start i a hi]; omega) (by rw [h.total]; simp)
  simp only [Int.zero_mul, Int.toNat_zero, List.drop_zero] at h1
  conv_lhs => rw [← h1]
  rw [List.mem_flatMap]
  simp [OldMesh.idata]

theorem oldStacked_mem {c : List (OldMesh F × Mat F)} {v : Int} :
    v ∈ (oldStack 0 c).flatten ↔ ∃ (k : Nat) (p : OldMesh F × Mat F) (w : Int), c[k]? = some p ∧
      w ∈ p.1.idata p.2 ∧ v = w + oldColumnVerts (c.take k) := by
  rw [List.mem_flatten]
  constructor
  · rintro ⟨l, hl, hv⟩
    obtain ⟨k, hk⟩ := List.getElem?_of_mem hl
    rw [oldStack_get] at hk
    obtain ⟨p, hp, rfl⟩ := Option.map_eq_some_iff.1 hk
    obtain ⟨w, hw, rfl⟩ := List.mem_map.1 hv
    exact ⟨k, p, w, hp, hw, by simp⟩
  · rintro ⟨k, p, w, hp, hw, rfl⟩
    refine ⟨_, List.mem_of_getElem? (i := k) (by rw [oldStack_get, hp]; rfl), List.mem_map.2 ⟨w, hw, by simp⟩⟩

theorem oldColumnVerts_nonneg {c : List (OldMesh F × Mat F)} (h : ∀ p ∈ c, 0 ≤ p.2.vnum) :
    0 ≤ oldColumnVerts c := by
  induction c with
  | nil => exact Int.le_refl 0
  | cons p c ih =>
    rw [oldColumnVerts_cons]
    have h1 := h p (by simp)
    have h2 := ih fun q hq => h q (by simp [hq])
    omega

/-- A chain fits a file exactly if its counts and its stacked indices fit. -/
theorem OldChained.range {vs : Nat} {pl : Plat} {m m' : OldMesh F} {os : List (OldMesh F)}
    (h : OldChained vs m os m') (ok : OldChainable vs m os) (first : OldInRange pl m)
    (others : ∀ o ∈ os, ∀ v ∈ o.index, 0 ≤ v) :
    OldInRange pl m' ↔ IsLong pl (m.vertnum + (os.map OldMesh.vertnum).sum) ∧
      IsLong pl (m.indexnum + (os.map OldMesh.indexnum).sum) ∧ ¬ OldChainOverflows (m :: os) := by
  have hl : m'.mats.length = m.mats.length := h.geoms.counts.mats_length.symm
  have order : ∀ x ∈ m :: os, OldOrderly vs x := by
    intro x hx
    rcases List.mem_cons.1 hx with rfl | hx
    · exact ok.first
    · exact ok.others x hx
  constructor
  · intro r
    refine ⟨by rw [← h.vertnum]; exact r.vertnum, by rw [← h.indexnum]; exact r.indexnum, ?_⟩
    rintro ⟨i, k, p, w, -, hp, hw, big⟩
    obtain ⟨hpm, hpa⟩ := oldColumn_mem (List.mem_of_getElem? hp)
    have hlt : i < m.mats.length := by
      have h1 := (List.getElem?_eq_some_iff.1 hpa).1
      rcases List.mem_cons.1 hpm with h2 | h2
      · rw [← h2]; exact h1
      · rw [(ok.counts _ h2).mats_length]; exact h1
    obtain ⟨a, ha⟩ := getElem?_lt rfl (l := m.mats) (i := i) hlt
    obtain ⟨a', h2, -, -, h3⟩ := h.mats i a ha
    have := r.index _ (h.order.tiledIndex.mem.2 ⟨a', List.mem_of_getElem? h2, by
      rw [h3]; exact oldStacked_mem.2 ⟨k, p, w, hp, hw, rfl⟩⟩)
    have := this.2
    omega
  · rintro ⟨hv, hi, hno⟩
    have hv' : IsLong pl m'.vertnum := by rw [h.vertnum]; exact hv
    have hi' : IsLong pl m'.indexnum := by rw [h.indexnum]; exact hi
    refine ⟨by rw [h.format.head]; exact first.head_u1, by rw [h.format.head]; exact first.version,
      by rw [h.format.head]; exact first.head_u3, by rw [h.format.head]; exact first.head_u4,
      by rw [h.format.head]; exact first.head_u5, by rw [h.format.u1]; exact first.u1,
      by rw [h.geomnum]; exact first.geomnum, ?_, by rw [h.format.vertattribnum]; exact first.vertattribnum,
      by rw [h.format.vattrs]; exact first.vattrs, by rw [h.format.vertformat]; exact first.vertformat,
      by rw [h.format.vertstride]; exact first.vertstride, hv', hi', ?_,
      by rw [h.format.u2]; exact first.u2, ?_⟩
    · intro g' hg'
      obtain ⟨i, hi⟩ := List.mem_iff_getElem?.1 hg'
      obtain ⟨g, hgi, h1, -⟩ := forall₂_getElem? h.geoms.flip hi
      rw [h1]
      exact first.lodnum g (List.mem_of_getElem? hgi)
    · intro v hv
      obtain ⟨a', ha', hv⟩ := h.order.tiledIndex.mem.1 hv
      obtain ⟨i, hia⟩ := List.mem_iff_getElem?.1 ha'
      obtain ⟨a, ha⟩ := getElem?_lt rfl (l := m.mats) (i := i) (by
        rw [← hl]; exact (List.getElem?_eq_some_iff.1 hia).1)
      obtain ⟨a2, h2, -, -, h3⟩ := h.mats i a ha
      rw [hia] at h2
      cases h2
      rw [h3] at hv
      obtain ⟨k, p, w, hp, hw, rfl⟩ := oldStacked_mem.1 hv
      obtain ⟨hpm, hpa⟩ := oldColumn_mem (List.mem_of_getElem? hp)
      have hw' : w ∈ p.1.index :=
        (order _ hpm).tiledIndex.mem.2 ⟨p.2, List.mem_of_getElem? hpa, hw⟩
      have hnn : 0 ≤ oldColumnVerts ((oldColumn i (m :: os)).take k) := oldColumnVerts_nonneg fun q hq => by
        obtain ⟨hqm, hqa⟩ := oldColumn_mem (List.mem_of_mem_take hq)
        exact (order _ hqm).tiled.nonneg _ (List.mem_of_getElem? hqa)
      have hw0 : 0 ≤ w := by
        rcases List.mem_cons.1 hpm with h2 | h2
        · rw [h2] at hw'; exact (first.index _ hw').1
        · exact others _ h2 _ hw'
      refine ⟨by omega, ?_⟩
      by_contra hbig
      rcases Nat.eq_zero_or_pos k with rfl | hk
      · rw [oldColumn_some ha] at hp
        simp only [List.getElem?_cons_zero, Option.some.injEq] at hp
        subst hp
        have := (first.index _ hw').2
        simp [oldColumnVerts] at hbig
        omega
      · exact hno ⟨i, k, p, w, hk, hp, hw, by omega⟩
    · intro g' hg' l' hl'
      have hmat : ∀ a' ∈ l'.materials, MatInRange pl a' := by
        intro a' ha'
        have hmem : a' ∈ m'.mats := by
          unfold OldMesh.mats
          exact List.mem_flatMap.2 ⟨g', hg', List.mem_flatMap.2 ⟨l', hl', ha'⟩⟩
        obtain ⟨i, hia⟩ := List.mem_iff_getElem?.1 hmem
        obtain ⟨a, ha⟩ := getElem?_lt rfl (l := m.mats) (i := i) (by
          rw [← hl]; exact (List.getElem?_eq_some_iff.1 hia).1)
        obtain ⟨a2, h2, h3, -, -⟩ := h.mats i a ha
        rw [hia] at h2
        cases h2
        have hr : MatInRange pl a := by
          have := List.mem_of_getElem? ha
          unfold OldMesh.mats at this
          obtain ⟨g, hg, h4⟩ := List.mem_flatMap.1 this
          obtain ⟨l, hl, h5⟩ := List.mem_flatMap.1 h4
          exact (first.lods g hg l hl).mats a h5
        obtain ⟨v1, v2, v3⟩ := h.order.tiled.exist a' hmem
        obtain ⟨i1, i2, i3⟩ := h.order.tiledIndex.exist a' hmem
        rw [h.order.wf.index] at i3
        refine ⟨?_, ?_, ?_, ?_, ?_, isLong_under hv' v1 (by omega), isLong_under hi' i1 (by omega),
          isLong_under hi' i2 (by omega), isLong_under hv' v2 (by omega), ?_, ?_⟩
        all_goals rw [h3]
        · exact hr.alphamode
        · exact hr.fxfile
        · exact hr.technique
        · exact hr.mapnum
        · exact hr.maps
        · exact hr.u4
        · exact hr.u5
      obtain ⟨i, hi⟩ := List.mem_iff_getElem?.1 hg'
      obtain ⟨g, hgi, -, h2⟩ := forall₂_getElem? h.geoms.flip hi
      obtain ⟨j, hj⟩ := List.mem_iff_getElem?.1 hl'
      obtain ⟨l, hlj, h3⟩ := forall₂_getElem? h2.flip hj
      have hr := first.lods g (List.mem_of_getElem? hgi) l (List.mem_of_getElem? hlj)
      rw [← h3.rest] at hr
      exact ⟨hr.rignum, hr.bonenum, hr.boneid, hr.nodenum, hr.matnum, hmat⟩

end Bf2
