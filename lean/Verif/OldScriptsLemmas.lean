import Verif.OldScripts
import Verif.OldScriptsSpec
import Verif.OldTransformLemmas

/-!
# Lemmas about the functions of `Verif/OldScripts.lean`
-/

namespace Bf2

variable {F : Type}

/-! ## copy_geom_table -/

/-- A loop whose rounds only append to the arrays. -/
theorem trav_copy {α : Type} {f : CopySt F → α → CopySt F × α × Option Err} {d : α → List F}
    {e : α → List Int} {h : α → α} {k : Nat} (l : List α)
    (step : ∀ a ∈ l, ∀ s, f s a = (⟨s.verts ++ d a, s.index ++ e a, s.geoms + k⟩, h a, none))
    (s : CopySt F) : trav f s l =
      (⟨s.verts ++ l.flatMap d, s.index ++ l.flatMap e, s.geoms + l.length * k⟩, l.map h, none) := by
  induction l generalizing s with
  | nil => simp [trav]
  | cons a as ih =>
    rw [trav, step a (by simp)]
    simp only [ih fun b hb => step b (by simp [hb])]
    simp only [List.flatMap_cons, List.append_assoc, List.length_cons, List.map_cons, Nat.add_assoc,
      Nat.add_mul, Nat.one_mul, Nat.add_comm k]

theorem copyMat_ok {vs : Nat} {m o : OldMesh F} (table : PackedTable vs m.vertformat m.vertstride m.vattrs)
    (vertsList : m.vertsList = true) (indexList : m.indexList = true) {a : Mat F}
    (h1 : 0 ≤ a.vstart) (h2 : 0 ≤ a.vnum) (h3 : (a.vstart + a.vnum) * vs ≤ 2 ^ 53)
    (h4 : 0 ≤ a.istart) (h5 : 0 ≤ a.inum) (s : CopySt F) :
    copyMat m o s a =
      (⟨s.verts ++ o.vdata vs a, s.index ++ o.idata a, s.geoms + 0⟩, behind m a, none) := by
  have e : ∀ x : Int, 0 ≤ x → x * vs ≤ 2 ^ 53 →
      intDivMul m.vertstride m.vertformat x = x * vs := by
    intro x h0 hx
    rw [intDivMul_exact table.format table.stride
      (by rw [mul_comm, abs_of_nonneg (by positivity)]; exact hx), mul_comm]
  have hv : (0 : Int) ≤ vs := by positivity
  have n1 : 0 ≤ a.vstart * vs := mul_nonneg h1 hv
  have n2 : 0 ≤ a.vnum * vs := mul_nonneg h2 hv
  have b1 : a.vstart * vs ≤ 2 ^ 53 := by nlinarith
  have b2 : a.vnum * vs ≤ 2 ^ 53 := by nlinarith
  unfold copyMat
  simp only [table.format, if_false, vertsList, indexList, Bool.not_true, Bool.false_eq_true,
    Bool.false_and, e _ h1 b1, e _ h2 b2, pySlice_block _ n1 n2, pySlice_block _ h4 h5]
  rfl

theorem copyGeom_ok {m o : OldMesh F} {d : Mat F → List F} {e : Mat F → List Int} {g : OldGeom F}
    (step : ∀ a ∈ g.mats, ∀ s, copyMat m o s a =
      (⟨s.verts ++ d a, s.index ++ e a, s.geoms + 0⟩, behind m a, none)) (s : CopySt F) :
    copyGeom m o s g = (⟨s.verts ++ g.mats.flatMap d, s.index ++ g.mats.flatMap e, s.geoms + 1⟩,
      g.mapMats (behind m), none) := by
  have lod : ∀ l ∈ g.lods, ∀ s, copyLod m o s l =
      (⟨s.verts ++ l.materials.flatMap d, s.index ++ l.materials.flatMap e, s.geoms + 0⟩,
        { l with materials := l.materials.map (behind m) }, none) := by
    intro l hl s
    unfold copyLod
    rw [trav_copy l.materials fun a ha => step a (List.mem_flatMap.2 ⟨l, hl, ha⟩)]
    simp
  unfold copyGeom
  rw [trav_copy g.lods lod]
  simp only [OldGeom.mapMats, OldGeom.mats, List.flatMap_assoc, Nat.mul_zero, Nat.add_zero]

theorem OldTiled.flat {vs : Nat} {m : OldMesh F} (h : OldTiled m)
    (count : (m.vertices.length : Int) = m.vertnum * vs) :
    m.mats.flatMap (m.vdata vs) = m.vertices := by
  have := blocks_drop m.vertices vs Mat.vstart Mat.vnum m.mats 0 (by omega) h.nonneg
    (fun i a hi => by rw [h.start i a hi]; omega) (by rw [count, h.total]; simp)
  rw [show m.vdata vs = fun a => block m.vertices (a.vstart * vs) (a.vnum * vs) from rfl]
  simpa using this

theorem OldTiledIndex.flat {m : OldMesh F} (h : OldTiledIndex m) :
    m.mats.flatMap m.idata = m.index := by
  have := blocks_drop m.index 1 Mat.istart Mat.inum m.mats 0 (by omega) h.nonneg
    (fun i a hi => by rw [h.start i a hi]; omega) (by rw [h.total]; simp)
  rw [show m.idata = fun a => block m.index a.istart a.inum from rfl]
  simpa using this

theorem OldTiledIndex.exist {m : OldMesh F} (h : OldTiledIndex m) :
    ∀ a ∈ m.mats, 0 ≤ a.istart ∧ 0 ≤ a.inum ∧ a.istart + a.inum ≤ m.index.length := by
  intro a ha
  obtain ⟨i, hi⟩ := List.mem_iff_getElem?.1 ha
  have h1 := h.start i a hi
  have h3 := sum_take_le h.nonneg (i + 1)
  rw [sum_take_succ hi] at h3
  have h4 := sum_nonneg (l := m.mats.take i) (f := Mat.inum)
    (fun a ha => h.nonneg a (List.mem_of_mem_take ha))
  have := h.total
  exact ⟨by omega, h.nonneg a ha, by omega⟩

theorem block_append_left {α : Type} (l r : List α) {s n : Int} (hs : 0 ≤ s) (hn : 0 ≤ n)
    (h : s + n ≤ l.length) : block (l ++ r) s n = block l s n := by
  unfold block
  rw [List.drop_append_of_le_length (by omega),
    List.take_append_of_le_length (by rw [List.length_drop]; omega)]

theorem block_append_right {α : Type} (l r : List α) {s n k : Int} (hs : 0 ≤ s)
    (hk : k = l.length + s) : block (l ++ r) k n = block r s n := by
  unfold block
  have : k.toNat = l.length + s.toNat := by omega
  rw [this, List.drop_append, List.drop_eq_nil_of_le (by omega)]
  simp

/-- Copying the geoms of a tiled mesh behind those of a tiled mesh. -/
theorem copy_ok {vs : Nat} {m o : OldMesh F} (packed : Packed vs m) (tiled : OldTiled m)
    (tiledIndex : OldTiledIndex m) (indexnum : m.indexnum = m.index.length)
    (vertsList : m.vertsList = true) (indexList : m.indexList = true)
    (count : (o.vertices.length : Int) = o.vertnum * vs) (tiled' : OldTiled o)
    (tiledIndex' : OldTiledIndex o) (small : m.vertices.length + o.vertices.length ≤ 2 ^ 53) :
    ∃ m' gs, copyGeomTable m o = (m', { o with geoms := gs }, none) ∧
      m' = { m with
        geoms := m.geoms ++ gs, geomnum := m.geoms.length + o.geoms.length
        vertices := m.vertices ++ o.vertices, vertnum := m.vertnum + o.vertnum
        index := m.index ++ o.index, indexnum := m.index.length + o.index.length } ∧
      List.Forall₂ (OldGeomKept vs m m') m.geoms m.geoms ∧
      List.Forall₂ (OldGeomKept vs o m') o.geoms gs ∧
      gs = o.geoms.map (OldGeom.mapMats (behind m)) ∧
      Packed vs m' ∧ OldTiled m' ∧ OldTiledIndex m' := by
  have ex := tiled'.exist
  have exI := tiledIndex'.exist
  have step : ∀ a ∈ o.mats, ∀ s, copyMat m o s a =
      (⟨s.verts ++ o.vdata vs a, s.index ++ o.idata a, s.geoms + 0⟩, behind m a, none) := by
    intro a ha
    obtain ⟨h1, h2, h3⟩ := ex a ha
    obtain ⟨h4, h5, -⟩ := exI a ha
    refine copyMat_ok packed.table vertsList indexList h1 h2 ?_ h4 h5
    have := mul_le_mul_of_nonneg_right h3 (show (0 : Int) ≤ vs by positivity)
    have : (o.vertices.length : Int) ≤ 2 ^ 53 := by exact_mod_cast (by omega : o.vertices.length ≤ 2 ^ 53)
    linarith
  have hmo : o.geoms.flatMap OldGeom.mats = o.mats := rfl
  have hmm : m.geoms.flatMap OldGeom.mats = m.mats := rfl
  have tr : trav (copyGeom m o) ⟨m.vertices, m.index, 0⟩ o.geoms =
      (⟨m.vertices ++ o.vertices, m.index ++ o.index, o.geoms.length⟩,
        o.geoms.map (OldGeom.mapMats (behind m)), none) := by
    rw [trav_copy o.geoms fun g hg => copyGeom_ok fun a ha =>
      step a (List.mem_flatMap.2 ⟨g, hg, ha⟩)]
    simp only [← List.flatMap_assoc, Nat.mul_one, Nat.zero_add, hmo]
    rw [tiled'.flat count, tiledIndex'.flat]
  have hvs : (0 : Int) < vs := by exact_mod_cast packed.table.pos
  have len : (((m.vertices ++ o.vertices).length : Nat) : Int) = (m.vertnum + o.vertnum) * vs := by
    rw [List.length_append, Int.natCast_add, packed.count, count]; ring
  let gs := o.geoms.map (OldGeom.mapMats (behind m))
  let m' : OldMesh F := { m with
    geoms := m.geoms ++ gs, geomnum := m.geoms.length + o.geoms.length
    vertices := m.vertices ++ o.vertices, vertnum := m.vertnum + o.vertnum
    index := m.index ++ o.index, indexnum := m.index.length + o.index.length }
  have dd : intDivDiv ((m.vertices ++ o.vertices).length : Nat) m.vertstride m.vertformat =
      m.vertnum + o.vertnum := by
    refine intDivDiv_exact packed.table.format hvs.ne' packed.table.stride len ?_ ?_
    · rw [abs_of_nonneg (by positivity), List.length_append]
      exact_mod_cast small
    · rw [abs_of_nonneg hvs.le]
      have := packed.table.small
      exact_mod_cast this.trans (by norm_num)
  have hst : m.vertstride ≠ 0 := by
    rw [packed.table.stride]
    exact mul_ne_zero packed.table.format hvs.ne'
  have run : copyGeomTable m o = (m', { o with geoms := gs }, none) := by
    unfold copyGeomTable
    rw [tr]
    simp only [packed.table.format, hst, or_self, if_false, dd]
    simp only [List.length_append, List.length_map, Int.natCast_add]
    rfl
  have hmats : m'.mats = m.mats ++ o.mats.map (behind m) := by
    show (m.geoms ++ gs).flatMap OldGeom.mats = _
    rw [List.flatMap_append, mats_mapMats, hmm, hmo]
  have r1 := retile_eq_self tiled tiledIndex
  have r2 := retile_eq_self tiled' tiledIndex'
  have hret : m'.mats = retile 0 0 (m.mats ++ o.mats) := by
    rw [hmats, retile_append, r1]
    congr 1
    conv_lhs => rw [← r2]
    have := retile_shift 0 0 (-m.vertnum) (-m.indexnum) o.mats
    simp only [sub_neg_eq_add] at this
    rw [show behind m = fun b => { b with
      vstart := b.vstart + m.vertnum, istart := b.istart + m.indexnum } from rfl, this, tiled.total,
      indexnum, tiledIndex.total]
  have k1 : ∀ a ∈ m.mats, OldMatKept vs m m' a a := by
    intro a ha
    obtain ⟨h1, h2, h3⟩ := tiled.exist a ha
    obtain ⟨h4, h5, h6⟩ := tiledIndex.exist a ha
    refine ⟨rfl, ?_, block_append_left _ _ h4 h5 h6⟩
    refine block_append_left _ _ (mul_nonneg h1 hvs.le) (mul_nonneg h2 hvs.le) ?_
    rw [packed.count, ← add_mul]
    exact mul_le_mul_of_nonneg_right h3 hvs.le
  have k2 : ∀ a ∈ o.mats, OldMatKept vs o m' a (behind m a) := by
    intro a ha
    obtain ⟨h1, h2, h3⟩ := ex a ha
    obtain ⟨h4, h5, h6⟩ := exI a ha
    refine ⟨rfl, ?_, ?_⟩
    · refine block_append_right _ _ (mul_nonneg h1 hvs.le) ?_
      show (a.vstart + m.vertnum) * vs = _
      rw [packed.count]; ring
    · refine block_append_right _ _ h4 ?_
      show a.istart + m.indexnum = _
      rw [indexnum]; ring
  refine ⟨m', gs, run, rfl, ?_, ?_, rfl, ⟨packed.table, len⟩, ?_, ?_⟩
  · exact List.forall₂_same.2 fun g hg => kept_self g fun a ha => k1 a (List.mem_flatMap.2 ⟨g, hg, ha⟩)
  · exact forall₂_map_self fun g hg => kept_mapMats vs o m' g fun a ha =>
      k2 a (List.mem_flatMap.2 ⟨g, hg, ha⟩)
  · refine retile_tiled_old hret ?_ ?_
    · intro b hb
      rcases List.mem_append.1 hb with h | h
      · exact tiled.nonneg b h
      · exact tiled'.nonneg b h
    · show m.vertnum + o.vertnum = _
      rw [List.map_append, List.sum_append, tiled.total, tiled'.total]
  · refine retile_tiledIndex_old hret ?_ ?_
    · intro b hb
      rcases List.mem_append.1 hb with h | h
      · exact tiledIndex.nonneg b h
      · exact tiledIndex'.nonneg b h
    · show (((m.index ++ o.index).length : Nat) : Int) = _
      rw [List.map_append, List.sum_append, List.length_append, Int.natCast_add, tiledIndex.total,
        tiledIndex'.total]

/-- A loop in which some round raises and none changes anything. -/
theorem trav_stuck {σ α : Type} {f : σ → α → σ × α × Option Err} {s : σ} {e : Err} {l : List α}
    {Q : α → Prop} (skip : ∀ a ∈ l, ¬ Q a → f s a = (s, a, none))
    (raises : ∀ a ∈ l, Q a → f s a = (s, a, some e)) :
    ((∀ a ∈ l, ¬ Q a) → trav f s l = (s, l, none)) ∧
      ((∃ a ∈ l, Q a) → trav f s l = (s, l, some e)) := by
  induction l with
  | nil => exact ⟨fun _ => rfl, fun ⟨a, ha, _⟩ => by simp at ha⟩
  | cons a as ih =>
    obtain ⟨i1, i2⟩ := ih (fun b hb => skip b (by simp [hb])) (fun b hb => raises b (by simp [hb]))
    refine ⟨fun h => ?_, fun ⟨b, hb, hq⟩ => ?_⟩
    · rw [trav, skip a (by simp) (h a (by simp))]
      simp only [i1 fun b hb => h b (by simp [hb])]
    · by_cases ha : Q a
      · rw [trav, raises a (by simp) ha]
      · rcases List.mem_cons.1 hb with rfl | hb
        · exact absurd hq ha
        · rw [trav, skip a (by simp) ha]
          simp only [i2 ⟨b, hb, hq⟩]

theorem copyGeom_tuple {m o : OldMesh F} (format : m.vertformat ≠ 0) (tuple : m.vertsList = false)
    (s : CopySt F) (g : OldGeom F) :
    (g.mats = [] → copyGeom m o s g = ({ s with geoms := s.geoms + 1 }, g, none)) ∧
      (g.mats ≠ [] →
        copyGeom m o s g = ({ s with geoms := s.geoms + 1 }, g, some .attributeError)) := by
  have lod := fun s : CopySt F => trav_stuck (f := copyLod m o) (s := s) (e := .attributeError)
    (l := g.lods) (Q := fun l => l.materials ≠ [])
    (fun l _ h => by
      have h : l.materials = [] := by simpa using h
      unfold copyLod
      rw [h, trav, ← h])
    (fun l _ h => by
      unfold copyLod
      rcases hl : l.materials with _ | ⟨a, as⟩
      · exact absurd hl h
      · rw [trav, copyMat, if_neg format, tuple]
        simp only [Bool.not_false, if_true]
        rw [← hl])
  constructor
  · intro h
    unfold copyGeom
    rw [(lod _).1]
    intro l hl
    simp only [ne_eq, not_not]
    exact List.flatMap_eq_nil_iff.1 h l hl
  · intro h
    unfold copyGeom
    rw [(lod _).2]
    by_contra hc
    push Not at hc
    exact h (List.flatMap_eq_nil_iff.2 hc)

theorem copy_tuple {m o : OldMesh F} (format : m.vertformat ≠ 0) (tuple : m.vertsList = false)
    {G rest : List (OldGeom F)} {g : OldGeom F} (geoms : o.geoms = G ++ g :: rest)
    (empty : ∀ h ∈ G, h.mats = []) (first : g.mats ≠ []) :
    copyGeomTable m o = ({ m with geoms := m.geoms ++ G ++ [g] }, o, some .attributeError) := by
  have tr : ∀ (s : CopySt F) (G : List (OldGeom F)), (∀ h ∈ G, h.mats = []) →
      trav (copyGeom m o) s (G ++ g :: rest) =
        ({ s with geoms := s.geoms + (G.length + 1) }, G ++ g :: rest, some .attributeError) := by
    intro s G hG
    induction G generalizing s with
    | nil =>
      rw [List.nil_append, trav, (copyGeom_tuple format tuple s g).2 first]
      rfl
    | cons h G ih =>
      rw [List.cons_append, trav, (copyGeom_tuple format tuple s h).1 (hG h (by simp))]
      simp only [ih _ fun x hx => hG x (by simp [hx]), List.length_cons]
      rw [show s.geoms + 1 + (G.length + 1) = s.geoms + (G.length + 1 + 1) by omega]
  unfold copyGeomTable
  rw [geoms, tr _ G empty]
  simp only [Nat.zero_add]
  have ht : (G ++ g :: rest).take (G.length + 1) = G ++ [g] := by
    rw [List.take_append, List.take_of_length_le (by omega)]
    simp
  rw [ht, ← geoms, List.append_assoc]

/-! ## remove_vertice_id -/

theorem vsize_exact {vs : Nat} {vf st : Int} {attrs : List VAttr} (h : PackedTable vs vf st attrs) :
    intTrueDiv st vf = vs :=
  intTrueDiv_exact h.format h.stride (by
    rw [abs_of_nonneg (by positivity)]
    have : (vs : ℤ) ≤ 65535 := by exact_mod_cast h.small
    exact le_trans this (by norm_num))

theorem removeVertice_ok {vs : Nat} {m : OldMesh F} (packed : Packed vs m)
    (small : m.vertnum ≤ 2 ^ 53) (id : Int) (h24 : 24 < m.vertnum) :
    removeVertice m id = ({ m with
      vertsList := true, vertnum := m.vertnum - 1
      vertices := m.vertices.take (24 * vs) ++ m.vertices.drop (25 * vs) }, none) := by
  obtain ⟨n, hn, hlen⟩ := packed.num
  have hpos := packed.table.pos
  have hvs : (vs : Int) ≠ 0 := by omega
  have b : 25 * vs ≤ m.vertices.length := by
    rw [hlen]; exact Nat.mul_le_mul_right _ (by omega)
  have e1 : (24 : Int) * vs = ((24 * vs : Nat) : Int) := by push_cast; ring
  have e2 : (((24 * vs : Nat)) : Int) + vs = ((25 * vs : Nat) : Int) := by push_cast; ring
  have l : ((m.vertices.take (24 * vs) ++ m.vertices.drop (25 * vs)).length : Int) =
      vs * (m.vertnum - 1) := by
    rw [List.length_append, List.length_take, List.length_drop, Nat.min_eq_left (by omega), hn, hlen]
    have : 24 * vs + (n * vs - 25 * vs) = (n - 1) * vs := by
      rw [← Nat.sub_mul, ← Nat.add_mul]; congr 1; omega
    rw [this]
    push_cast [show 1 ≤ n by omega]
    ring
  have d := intTrueDiv_exact hvs l (by rw [abs_of_nonneg (by omega)]; omega)
  unfold removeVertice
  simp only [packed.table.format, if_false, vsize_exact packed.table, h24, if_true, e1, e2,
    pySliceSet_del _ (by omega : 24 * vs ≤ 25 * vs) b, hvs, d]

theorem removeVertice_few {vs : Nat} {m : OldMesh F} (packed : Packed vs m) (id : Int)
    (h24 : m.vertnum ≤ 24) : removeVertice m id = ({ m with vertsList := true }, none) := by
  obtain ⟨n, hn, hlen⟩ := packed.num
  have hpos := packed.table.pos
  have hvs : (vs : Int) ≠ 0 := by omega
  have d := intTrueDiv_exact hvs (packed.count.trans (mul_comm _ _))
    (by rw [abs_of_nonneg (by omega)]; omega)
  unfold removeVertice
  simp only [packed.table.format, if_false, vsize_exact packed.table, hvs, d,
    show ¬ 24 < m.vertnum by omega]

/-- The vertices without vertex `k`. -/
theorem vert_removed {vs n k : Nat} {l : List F} (h : l.length = n * vs) (hk : k < n) (i : Nat) :
    vert vs (l.take (k * vs) ++ l.drop ((k + 1) * vs)) i =
      if i < k then vert vs l i else vert vs l (i + 1) := by
  have hl : (l.take (k * vs)).length = k * vs := by
    rw [List.length_take, Nat.min_eq_left (by rw [h]; exact Nat.mul_le_mul_right _ (by omega))]
  unfold vert
  split_ifs with hi
  · have b : i * vs + vs ≤ k * vs := by
      rw [← Nat.succ_mul]; exact Nat.mul_le_mul_right _ hi
    rw [List.drop_append_of_le_length (by omega), List.take_append_of_le_length
      (by rw [List.length_drop]; omega), List.drop_take, List.take_take]
    congr 1
    omega
  · have b : k * vs ≤ i * vs := Nat.mul_le_mul_right _ (by omega)
    rw [List.drop_append, List.drop_eq_nil_of_le (by omega), hl, List.nil_append, List.drop_drop]
    congr 2
    rw [Nat.add_mul, Nat.add_mul]
    omega

/-! ## remove_attribute -/

/-- The loop over the vertices, from the last to the first. -/
theorem remData_eq {vs o n : Nat} (h : o + n ≤ vs) (ws : List (List F)) (hw : ∀ w ∈ ws, w.length = vs)
    (rest : List F) : remData (vs : Int) (o : Int) n ws.length (ws.flatten ++ rest) =
      (ws.map (without o n)).flatten ++ rest := by
  induction ws using List.reverseRecOn generalizing rest with
  | nil => rfl
  | append_singleton ws w ih =>
    have hl : ws.flatten.length = ws.length * vs := by
      rw [List.length_flatten, List.map_congr_left (g := fun _ => vs) fun w hx => hw w (by simp [hx])]
      simp
    have hwl : w.length = vs := hw w (by simp)
    rw [List.length_append, List.length_singleton, remData]
    have e1 : (o : Int) + (ws.length : Int) * (vs : Int) = ((o + ws.length * vs : Nat) : Int) := by
      push_cast; ring
    have e2 : ((o + ws.length * vs : Nat) : Int) + (n : Int) = ((o + ws.length * vs + n : Nat) : Int) := by
      push_cast; ring
    rw [e1, e2, pySliceSet_del _ (by omega) (by
      simp only [List.length_append, List.flatten_append, hl, List.flatten_singleton, hwl]
      omega)]
    have e3 : ((ws ++ [w]).flatten ++ rest).take (o + ws.length * vs) ++
        ((ws ++ [w]).flatten ++ rest).drop (o + ws.length * vs + n) =
        ws.flatten ++ (without o n w ++ rest) := by
      rw [List.flatten_append, List.flatten_singleton, List.append_assoc, List.take_append,
        List.drop_append, hl]
      rw [List.take_of_length_le (by omega), List.drop_eq_nil_of_le (by omega)]
      rw [show o + ws.length * vs - ws.length * vs = o by omega,
        show o + ws.length * vs + n - ws.length * vs = o + n by omega,
        List.take_append_of_le_length (by omega), List.drop_append_of_le_length (by omega)]
      simp [without]
    rw [e3, ih fun x hx => hw x (by simp [hx])]
    simp

theorem remAttr_ok {vf : Int} {a : VAttr} (hvf : vf ≠ 0) (h : EditableAttr a) :
    ∃ n, oldDeclLen a.vartype = .ok n ∧ remAttr vf a = .ok (intTrueDiv a.offset vf, n) := by
  obtain ⟨ht, hu⟩ := h
  have : ∃ n, oldDeclLen a.vartype = .ok n := by
    simp only [List.mem_cons, List.not_mem_nil, or_false] at ht
    rcases ht with h | h | h | h | h | h <;> rw [h] <;> exact ⟨_, rfl⟩
  obtain ⟨n, hn⟩ := this
  refine ⟨n, hn, ?_⟩
  unfold remAttr
  rw [(usageKnown_iff _).2 hu, if_neg hvf, hn]
  rfl

/-- What the loop does to the entries behind the attribute. -/
def movedEntry (vf k : Int) (a : VAttr) : VAttr :=
  if intTrueDiv a.offset vf ≠ 0 then { a with offset := a.offset - k } else a

theorem movedEntry_fields (vf k : Int) (a : VAttr) :
    movedEntry vf k a = { a with offset := (movedEntry vf k a).offset } := by
  unfold movedEntry
  split <;> rfl

theorem remStep_other {m : OldMesh F} (hvf : m.vertformat ≠ 0) {vsize u : Int} {s : RemSt F} {i : Nat}
    {a : VAttr} (h : EditableAttr a) (hu : a.usage ≠ u) : remStep m vsize u s (i, a) =
      (s, (i, if s.moved ≠ 0 then movedEntry m.vertformat s.moved a else a), none) := by
  obtain ⟨n, -, hr⟩ := remAttr_ok hvf h
  unfold remStep movedEntry
  simp only [hr, hu, if_false, false_and]
  by_cases h1 : s.moved = 0
  · simp [h1]
  · by_cases h2 : intTrueDiv a.offset m.vertformat = 0
    · simp [h1, h2]
    · simp [h1, h2]

theorem trav_other {m : OldMesh F} (hvf : m.vertformat ≠ 0) {vsize u : Int} (s : RemSt F)
    (l : List (Nat × VAttr)) (h : ∀ x ∈ l, EditableAttr x.2 ∧ x.2.usage ≠ u) :
    trav (remStep m vsize u) s l =
      (s, l.map fun x => (x.1, if s.moved ≠ 0 then movedEntry m.vertformat s.moved x.2 else x.2),
        none) := by
  induction l with
  | nil => rfl
  | cons x xs ih =>
    obtain ⟨i, a⟩ := x
    obtain ⟨h1, h2⟩ := h (i, a) (by simp)
    rw [trav, remStep_other hvf h1 h2]
    simp only [ih fun y hy => h y (by simp [hy])]
    rfl

theorem oldFloats_pos {t : Int} {n : Nat} (h : oldFloats t = some n) : 0 < n := by
  unfold oldFloats at h
  split at h <;> simp at h <;> omega

/-- The table after the loop. -/
theorem rem_loop {vs n o : Nat} {m : OldMesh F} (packed : Packed vs m) (list : m.vertsList = true)
    {B A : List VAttr} {a : VAttr} (attrs : m.vattrs = B ++ a :: A)
    (editable : ∀ b ∈ m.vattrs, EditableAttr b) (floats : oldFloats a.vartype = some n)
    (offset : a.offset = m.vertformat * o) (inside : o + n ≤ vs)
    (only : ∀ b ∈ B ++ A, b.usage ≠ a.usage) {k : Nat} (hk : m.vertnum = k) :
    trav (remStep m (intTrueDiv m.vertstride m.vertformat) a.usage) ⟨m.vertices, 0, 0⟩
      (enumerate m.vattrs) =
      (⟨((verts vs k m.vertices).map (without o n)).flatten, n * m.vertformat, B.length⟩,
        enumerate (B ++ (a :: A).map (movedEntry m.vertformat (n * m.vertformat))), none) := by
  have hvf := packed.table.format
  have hn := oldFloats_pos floats
  have hmoved : (n : Int) * m.vertformat ≠ 0 := mul_ne_zero (by omega) hvf
  have hlen : m.vertices.length = k * vs := by
    have := packed.count
    rw [hk] at this
    exact_mod_cast this
  have hoff : intTrueDiv a.offset m.vertformat = o := by
    refine intTrueDiv_exact hvf offset ?_
    rw [abs_of_nonneg (by positivity)]
    have := packed.table.small
    exact le_trans (show (o : Int) ≤ 65535 by omega) (by norm_num)
  have hrem : remData (vs : Int) (o : Int) n k m.vertices =
      ((verts vs k m.vertices).map (without o n)).flatten := by
    have := remData_eq inside (verts vs k m.vertices) (fun w hw => by
      obtain ⟨i, hi, rfl⟩ := List.mem_map.1 hw
      have hik := List.mem_range.1 hi
      have : (i + 1) * vs ≤ k * vs := Nat.mul_le_mul_right _ hik
      rw [Nat.add_mul] at this
      rw [vert, List.length_take, List.length_drop, hlen]
      omega) []
    rw [List.append_nil, List.append_nil, verts_flatten hlen, verts_length] at this
    exact this
  have hB : ∀ x ∈ enumerate B, EditableAttr x.2 ∧ x.2.usage ≠ a.usage := by
    intro x hx
    obtain ⟨i, hi, rfl⟩ := List.mem_mapIdx.1 hx
    exact ⟨editable _ (by rw [attrs]; simp), only _ (by simp)⟩
  have hA : ∀ x ∈ A.mapIdx fun i b => (i + 1 + B.length, b),
      EditableAttr x.2 ∧ x.2.usage ≠ a.usage := by
    intro x hx
    obtain ⟨i, hi, rfl⟩ := List.mem_mapIdx.1 hx
    exact ⟨editable _ (by rw [attrs]; simp), only _ (by simp)⟩
  have split : enumerate m.vattrs =
      enumerate B ++ (B.length, a) :: A.mapIdx fun i b => (i + 1 + B.length, b) := by
    unfold enumerate
    rw [attrs, List.mapIdx_append, List.mapIdx_cons]
    simp
  obtain ⟨n', hd, hr⟩ := remAttr_ok hvf (editable a (by rw [attrs]; simp))
  have hnn : n' = n := by
    rw [(oldFloats_declLen floats).1] at hd
    injection hd with hd
    exact hd.symm
  subst hnn
  have step : remStep m (vs : Int) a.usage ⟨m.vertices, 0, 0⟩ (B.length, a) =
      (⟨((verts vs k m.vertices).map (without o n')).flatten, n' * m.vertformat, B.length⟩,
        (B.length, movedEntry m.vertformat (n' * m.vertformat) a), none) := by
    unfold remStep movedEntry
    simp only [hr, if_true, list, Bool.true_eq_false, and_false, if_false, hk, Int.toNat_natCast, hoff,
      hrem]
    by_cases h0 : (o : Int) = 0
    · simp [h0]
    · have h1 : o ≠ 0 := by exact_mod_cast h0
      simp [h1, hmoved]
  rw [vsize_exact packed.table, split, trav_append, trav_other hvf _ _ hB]
  simp only [ne_eq, not_true_eq_false, if_false]
  rw [trav, step]
  simp only
  rw [trav_other hvf _ _ hA]
  simp only [hmoved, ne_eq, not_false_eq_true, if_true]
  refine congrArg _ (congrArg₂ _ ?_ rfl)
  unfold enumerate
  rw [List.mapIdx_append, List.map_cons, List.mapIdx_cons]
  congr 1
  · exact List.ext_getElem (by simp) (by simp)
  · exact congrArg₂ _ (by simp) (List.ext_getElem (by simp) (by simp))

theorem Packs.moved {vf : Int} (hvf : vf ≠ 0) {vs n : Nat} (hn : 0 < n) (small : vs ≤ 65535)
    {A : List VAttr} {p q : Nat} (h : Packs vf vs p A) (hp : p = q + n) :
    Packs vf (vs - n) q (A.map (movedEntry vf (n * vf))) := by
  induction h generalizing q with
  | done =>
    have : q = vs - n := by omega
    rw [this]
    exact .done
  | @unused p a as hf _ ih =>
    refine .unused ?_ (ih hp)
    rw [movedEntry_fields]
    exact hf
  | @used p k a as hf hk hoff h ih =>
    have hle := h.le
    have d : intTrueDiv a.offset vf = p := by
      refine intTrueDiv_exact hvf hoff ?_
      rw [abs_of_nonneg (by positivity)]
      exact le_trans (show (p : Int) ≤ 65535 by omega) (by norm_num)
    have e : movedEntry vf (n * vf) a = { a with offset := a.offset - n * vf } := by
      unfold movedEntry
      rw [d, if_pos (by omega)]
    refine .used (n := k) ?_ ?_ ?_ (ih (by omega))
    · rw [e]; exact hf
    · rw [e]; exact hk
    · rw [e]
      show a.offset - n * vf = vf * q
      rw [hoff, hp]
      push_cast
      ring

/-- Where an attribute in use is, and the table without it. -/
theorem Packs.removed {vf : Int} (hvf : vf ≠ 0) {vs n : Nat} (small : vs ≤ 65535)
    {B A : List VAttr} {a : VAttr} (used : a.flag ≠ 255) (floats : oldFloats a.vartype = some n)
    {p : Nat} (h : Packs vf vs p (B ++ a :: A)) :
    ∃ o : Nat, p ≤ o ∧ a.offset = vf * o ∧ o + n ≤ vs ∧
      Packs vf (vs - n) p (B ++ A.map (movedEntry vf (n * vf))) := by
  induction B generalizing p with
  | nil =>
    cases h with
    | unused hf _ => exact absurd hf used
    | @used _ n' _ _ _ hn hoff h =>
      rw [floats] at hn
      injection hn with hn
      subst hn
      exact ⟨p, le_rfl, hoff, h.le, h.moved hvf (oldFloats_pos floats) small rfl⟩
  | cons b B ih =>
    cases h with
    | unused hf h =>
      obtain ⟨o, h1, h2, h3, h4⟩ := ih h
      exact ⟨o, h1, h2, h3, .unused hf h4⟩
    | used hf hn hoff h =>
      obtain ⟨o, h1, h2, h3, h4⟩ := ih h
      exact ⟨o, by omega, h2, h3, .used hf hn hoff h4⟩

theorem Holds.removed {v : VObj F} {vf : Int} (hvf : vf ≠ 0) {vs n : Nat} {B A : List VAttr}
    {a : VAttr} (used : a.flag ≠ 255) (floats : oldFloats a.vartype = some n) {p o : Nat}
    (h : Packs vf vs p (B ++ a :: A)) (offset : a.offset = vf * (p + o : Nat)) {w : List F}
    (hw : Holds v (B ++ a :: A) w) : Holds v (B ++ A) (without o n w) := by
  induction B generalizing p o w with
  | nil =>
    cases h with
    | unused hf _ => exact absurd hf used
    | used _ _ hoff _ =>
      rw [offset] at hoff
      have h0 := Int.eq_of_mul_eq_mul_left hvf hoff
      have h0 : o = 0 := by omega
      subst h0
      cases hw with
      | unused hf _ => exact absurd hf used
      | @used _ _ x w _ hx _ hw =>
        rw [floats] at hx
        injection hx with hx
        simp only [without, List.take_zero, List.nil_append, Nat.zero_add]
        rw [hx, List.drop_left]
        exact hw
  | cons b B ih =>
    cases h with
    | unused hf h =>
      cases hw with
      | used hf' _ _ _ => exact absurd hf hf'
      | unused _ hw => exact .unused hf (ih h offset hw)
    | @used _ k _ _ hf hn hoff h =>
      cases hw with
      | unused hf' _ => exact absurd hf' hf
      | @used _ _ x w _ hx hv hw =>
        rw [hn] at hx
        injection hx with hx
        obtain ⟨o', h1, h2, -, -⟩ : ∃ o' : Nat, p + k ≤ o' ∧ a.offset = vf * o' ∧ True ∧ True := by
          clear ih hw
          generalize p + k = q at h
          clear hoff offset
          induction B generalizing q with
          | nil =>
            cases h with
            | unused hf _ => exact absurd hf used
            | used _ _ hoff _ => exact ⟨q, le_rfl, hoff, trivial, trivial⟩
          | cons c B ih =>
            cases h with
            | unused _ h => exact ih _ h
            | used _ _ _ h =>
              obtain ⟨o', h1, h2⟩ := ih _ h
              exact ⟨o', by omega, h2⟩
        rw [offset] at h2
        have h2 := Int.eq_of_mul_eq_mul_left hvf h2
        have h2 : p + o = o' := by exact_mod_cast h2
        have := ih (o := o - k) h (by rw [offset]; congr 2; omega) hw
        have e : without o n (x ++ w) = x ++ without (o - k) n w := by
          unfold without
          rw [List.take_append, List.drop_append, List.take_of_length_le (by omega),
            List.drop_eq_nil_of_le (by omega), ← hx, show o + n - k = o - k + n by omega]
          simp
        rw [e]
        exact .used hf (by rw [hn, hx]) hv this

theorem Holds.moved {v : VObj F} {attrs attrs' : List VAttr} {w : List F} (h : Holds v attrs w)
    (same : List.Forall₂ SameAttr attrs attrs') : Holds v attrs' w := by
  induction h generalizing attrs' with
  | done => cases same; exact .done
  | unused hf _ ih =>
    cases same with
    | cons h1 h2 => exact .unused (by rw [h1]; exact hf) (ih h2)
  | used hf hn hv _ ih =>
    cases same with
    | cons h1 h2 => exact .used (by rw [h1]; exact hf) (by rw [h1]; exact hn) (by rw [h1]; exact hv) (ih h2)

theorem Holds.unique {v v' : VObj F} {attrs : List VAttr} {w : List F} (h : Holds v attrs w)
    (h' : Holds v' attrs w) : ∀ u ∈ usedUsages attrs, v' u = v u := by
  induction h with
  | done => simp [usedUsages]
  | @unused a as w hf _ ih =>
    cases h' with
    | used hf' _ _ _ => exact absurd hf hf'
    | unused _ h' =>
      intro u hu
      exact ih h' u (by simpa [usedUsages, hf] using hu)
  | @used a as x w hf hn hv _ ih =>
    generalize hy : x ++ w = y at h'
    cases h' with
    | unused hf' _ => exact absurd hf' hf
    | @used _ _ x' w' _ hn' hv' h' =>
      rw [hn] at hn'
      injection hn' with hn'
      obtain ⟨rfl, rfl⟩ := List.append_inj hy hn'
      intro u hu
      have hu' : u ∈ a.usage :: usedUsages as := by simpa [usedUsages, hf] using hu
      rcases List.mem_cons.1 hu' with rfl | hu'
      · rw [hv, hv']
      · exact ih h' u hu'

theorem getVertex_full {vs : Nat} {m : OldMesh F}
    (hp : PackedTable vs m.vertformat m.vertstride m.vattrs) (i : Nat)
    (hlen : (i + 1) * vs ≤ m.vertices.length) :
    ∃ v, getVertex m i = .ok v ∧ Holds v m.vattrs (vert vs m.vertices i) ∧
      ∀ u, u ∉ usedUsages m.vattrs → v u = none := by
  obtain ⟨v, hv, -, hh, hk⟩ := foldE_read i hp.format hp.small hp.known hp.packs hp.distinct hlen
    (fun _ => none)
  refine ⟨v, ?_, by simpa using hh, hk⟩
  unfold getVertex
  rw [if_neg hp.format, vsize_exact hp]
  exact hv

theorem enumerate_snd {α : Type} (l : List α) : (enumerate l).map Prod.snd = l :=
  List.ext_getElem (by simp [enumerate]) (by simp [enumerate])

theorem usedUsages_append (B A : List VAttr) : usedUsages (B ++ A) = usedUsages B ++ usedUsages A := by
  simp [usedUsages]

theorem usedUsages_same {A A' : List VAttr} (h : List.Forall₂ SameAttr A A') :
    usedUsages A' = usedUsages A := by
  induction h with
  | nil => rfl
  | @cons a a' as as' h _ ih =>
    have h1 : a'.flag = a.flag := by rw [h]
    have h2 : a'.usage = a.usage := by rw [h]
    unfold usedUsages at ih ⊢
    by_cases hf : a.flag = 255 <;> simp [h1, h2, hf, ih]

/-- The vertices after the loop. -/
theorem without_length {vs o n : Nat} (h : o + n ≤ vs) {w : List F} (hw : w.length = vs) :
    (without o n w).length = vs - n := by
  unfold without
  rw [List.length_append, List.length_take, List.length_drop]
  omega

theorem vert_length {vs k i : Nat} {l : List F} (h : l.length = k * vs) (hi : i < k) :
    (vert vs l i).length = vs := by
  have : (i + 1) * vs ≤ k * vs := Nat.mul_le_mul_right _ hi
  rw [Nat.add_mul] at this
  rw [vert, List.length_take, List.length_drop, h]
  omega

/-- Removing an attribute that is not the first of the table, with the new table. -/
theorem removeAttribute_table {vs n j : Nat} {m : OldMesh F} {a : VAttr} (packed : Packed vs m)
    (list : m.vertsList = true) (editable : ∀ b ∈ m.vattrs, EditableAttr b)
    (ha : m.vattrs[j]? = some a) (hj : j ≠ 0) (used : a.flag ≠ 255)
    (floats : oldFloats a.vartype = some n) (room : n < vs)
    (only : ∀ (k : Nat) (b : VAttr), m.vattrs[k]? = some b → b.usage = a.usage → k = j) :
    ∃ m', removeAttribute m a.usage = (m', none) ∧
      m' = { m with
        vertattribnum := m.vattrs.length - 1, vattrs := m'.vattrs
        vertstride := m.vertstride - n * m.vertformat, vertices := m'.vertices } ∧
      List.Forall₂ SameAttr (m.vattrs.eraseIdx j) m'.vattrs ∧ Packed (vs - n) m' ∧
      (∀ i : Nat, (i : Int) < m.vertnum →
        ∃ v, getVertex m i = .ok v ∧ getVertex m' i = .ok (v.drop a.usage)) ∧
      m'.vattrs = m.vattrs.take j ++
        (m.vattrs.drop (j + 1)).map (movedEntry m.vertformat (n * m.vertformat)) := by
  obtain ⟨hjl, haj⟩ := List.getElem?_eq_some_iff.1 ha
  obtain ⟨B, A, attrs, hB⟩ : ∃ B A, m.vattrs = B ++ a :: A ∧ B.length = j :=
    ⟨m.vattrs.take j, m.vattrs.drop (j + 1), by rw [← haj]; simp, by simp; omega⟩
  have other : ∀ b ∈ B ++ A, b.usage ≠ a.usage := by
    intro b hb he
    rcases List.mem_append.1 hb with h | h
    · obtain ⟨i, hi, rfl⟩ := List.mem_iff_getElem.1 h
      have := only i B[i] (by rw [attrs, List.getElem?_append_left hi]; simp) he
      omega
    · obtain ⟨i, hi, rfl⟩ := List.mem_iff_getElem.1 h
      have := only (B.length + 1 + i) A[i] (by
        rw [attrs, List.getElem?_append_right (by omega)]
        rw [show B.length + 1 + i - B.length = i + 1 by omega]
        simp) he
      omega
  have hvf := packed.table.format
  have packs := packed.table.packs
  rw [attrs] at packs
  obtain ⟨o, -, offset, inside, packs'⟩ := packs.removed hvf packed.table.small used floats
  obtain ⟨k, hk, hlen⟩ := packed.num
  have loop := rem_loop packed list attrs editable floats offset inside other hk
  have hn := oldFloats_pos floats
  let mv := movedEntry m.vertformat (n * m.vertformat)
  have same : List.Forall₂ SameAttr (B ++ A) (B ++ A.map mv) := by
    refine List.rel_append (R := SameAttr) (List.forall₂_same.2 fun b _ => rfl)
      (forall₂_map_self (R := SameAttr) fun b _ => movedEntry_fields _ _ b)
  have hdl : oldDeclLen (mv a).vartype = .ok n := by
    rw [show (mv a).vartype = a.vartype from by
      show (movedEntry _ _ a).vartype = _; rw [movedEntry_fields], (oldFloats_declLen floats).1]
  let ws := (verts vs k m.vertices).map (without o n)
  have hws : ∀ w ∈ ws, w.length = vs - n := by
    intro w hw
    obtain ⟨x, hx, rfl⟩ := List.mem_map.1 hw
    obtain ⟨i, hi, rfl⟩ := List.mem_map.1 hx
    exact without_length inside (vert_length hlen (List.mem_range.1 hi))
  have hwl : ws.length = k := by simp [ws, verts]
  let m' : OldMesh F := { m with
    vertattribnum := m.vattrs.length - 1, vattrs := B ++ A.map mv
    vertstride := m.vertstride - n * m.vertformat, vertices := ws.flatten }
  have run : removeAttribute m a.usage = (m', none) := by
    unfold removeAttribute
    rw [if_neg hvf, loop]
    simp only [enumerate_snd]
    have hne : B.length ≠ 0 := by omega
    have hget : (B ++ List.map mv (a :: A))[B.length]? = some (mv a) := by simp
    have her : (B ++ List.map mv (a :: A)).eraseIdx B.length = B ++ A.map mv := by
      rw [List.eraseIdx_append_of_length_le (by omega)]
      simp
    rw [if_pos hne, hget]
    simp only [hdl]
    rw [her]
    have hc : (((B ++ A.map mv).length : Nat) : Int) = m.vattrs.length - 1 := by
      rw [attrs]
      simp only [List.length_append, List.length_map, List.length_cons]
      push_cast
      ring
    rw [hc]
  have table : PackedTable (vs - n) m'.vertformat m'.vertstride m'.vattrs := by
    refine ⟨by omega, by have := packed.table.small; omega, hvf, ?_, ?_, packs', ?_⟩
    · show m.vertstride - n * m.vertformat = m.vertformat * ((vs - n : Nat) : Int)
      rw [packed.table.stride, Int.natCast_sub room.le]
      ring
    · intro b hb
      obtain ⟨i, hi, rfl⟩ := List.mem_iff_getElem.1 hb
      obtain ⟨b0, hb0, e⟩ := forall₂_getElem? (List.Forall₂.flip same) (List.getElem?_eq_getElem hi)
      have hm : b0 ∈ m.vattrs := by
        have := List.mem_of_getElem? hb0
        rw [attrs]
        rcases List.mem_append.1 this with h | h <;> simp [h]
      have := packed.table.known b0 hm
      rw [show m'.vattrs[i] = { b0 with offset := m'.vattrs[i].offset } from e]
      exact this
    · show (usedUsages (B ++ A.map mv)).Nodup
      rw [usedUsages_same same, usedUsages_append]
      have := packed.table.distinct
      rw [attrs] at this
      change (usedUsages (B ++ a :: A)).Nodup at this
      rw [usedUsages_append] at this
      refine this.sublist (List.Sublist.append (List.Sublist.refl _) ?_)
      rw [show usedUsages (a :: A) = a.usage :: usedUsages A by simp [usedUsages, used]]
      exact List.sublist_cons_self _ _
  have hl' : m'.vertices.length = k * (vs - n) := by
    show ws.flatten.length = _
    rw [List.length_flatten, List.map_congr_left (g := fun _ => vs - n) hws]
    simp [hwl]
  refine ⟨m', run, rfl, ?_, ⟨table, ?_⟩, ?_, by
    show B ++ A.map mv = _
    rw [attrs, ← hB]
    simp [mv]⟩
  · have : m.vattrs.eraseIdx j = B ++ A := by
      rw [attrs, ← hB, List.eraseIdx_append_of_length_le (by omega)]
      simp
    rw [this]
    exact same
  · rw [hl']
    show _ = m.vertnum * _
    rw [hk]
    push_cast
    rfl
  · intro i hi
    have hi : i < k := by omega
    obtain ⟨v, h1, h2, h3⟩ := getVertex_full packed.table i (by
      rw [hlen]; exact Nat.mul_le_mul_right _ hi)
    obtain ⟨v', h1', h2', h3'⟩ := getVertex_full table i (by
      rw [hl']; exact Nat.mul_le_mul_right _ hi)
    refine ⟨v, h1, ?_⟩
    rw [h1']
    congr 1
    have hvert : vert (vs - n) m'.vertices i = without o n (vert vs m.vertices i) := by
      show vert (vs - n) ws.flatten i = _
      rw [vert_flatten ws hws i (by omega)]
      simp [ws, verts]
    rw [hvert] at h2'
    rw [attrs] at h2
    have h4 := (Holds.removed hvf used floats (o := o) packs (by simpa using offset) h2).moved same
    have h5 := h4.unique h2'
    have hu : usedUsages (B ++ A.map mv) = usedUsages B ++ usedUsages A := by
      rw [usedUsages_same same, usedUsages_append]
    have hu0 : usedUsages m.vattrs = usedUsages B ++ a.usage :: usedUsages A := by
      rw [attrs, usedUsages_append]
      simp [usedUsages, used]
    funext u
    by_cases hmem : u ∈ usedUsages (B ++ A.map mv)
    · rw [h5 u hmem]
      have : u ≠ a.usage := by
        rintro rfl
        rw [hu, ← usedUsages_append] at hmem
        obtain ⟨b, hb, he⟩ := List.mem_map.1 hmem
        exact other b (List.mem_of_mem_filter hb) he
      simp [VObj.drop, this]
    · rw [h3' u hmem]
      unfold VObj.drop
      split_ifs with he
      · rfl
      · rw [h3 u]
        rw [hu0]
        rw [hu] at hmem
        simp only [List.mem_append, List.mem_cons, not_or] at hmem ⊢
        exact ⟨hmem.1, he, hmem.2⟩

/-- Removing an attribute that is not the first of the table. -/
theorem removeAttribute_ok {vs n j : Nat} {m : OldMesh F} {a : VAttr} (packed : Packed vs m)
    (list : m.vertsList = true) (editable : ∀ b ∈ m.vattrs, EditableAttr b)
    (ha : m.vattrs[j]? = some a) (hj : j ≠ 0) (used : a.flag ≠ 255)
    (floats : oldFloats a.vartype = some n) (room : n < vs)
    (only : ∀ (k : Nat) (b : VAttr), m.vattrs[k]? = some b → b.usage = a.usage → k = j) :
    ∃ m', removeAttribute m a.usage = (m', none) ∧
      m' = { m with
        vertattribnum := m.vattrs.length - 1, vattrs := m'.vattrs
        vertstride := m.vertstride - n * m.vertformat, vertices := m'.vertices } ∧
      List.Forall₂ SameAttr (m.vattrs.eraseIdx j) m'.vattrs ∧ Packed (vs - n) m' ∧
      ∀ i : Nat, (i : Int) < m.vertnum →
        ∃ v, getVertex m i = .ok v ∧ getVertex m' i = .ok (v.drop a.usage) := by
  obtain ⟨m', h1, h2, h3, h4, h5, -⟩ :=
    removeAttribute_table packed list editable ha hj used floats room only
  exact ⟨m', h1, h2, h3, h4, h5⟩

/-- Removing the first attribute of the table. -/
theorem removeAttribute_first {vs n : Nat} {m : OldMesh F} {a : VAttr} {A : List VAttr}
    (packed : Packed vs m) (list : m.vertsList = true) (editable : ∀ b ∈ m.vattrs, EditableAttr b)
    (attrs : m.vattrs = a :: A) (used : a.flag ≠ 255) (floats : oldFloats a.vartype = some n)
    (only : ∀ b ∈ A, b.usage ≠ a.usage) :
    ∃ attrs' vertices', removeAttribute m a.usage =
        ({ m with vattrs := attrs', vertices := vertices' }, none) ∧
      List.Forall₂ SameAttr m.vattrs attrs' ∧
      (vertices'.length : Int) = m.vertnum * (vs - n) := by
  have hvf := packed.table.format
  have packs := packed.table.packs
  rw [attrs] at packs
  obtain ⟨o, -, offset, inside, -⟩ := packs.removed (B := []) hvf packed.table.small used floats
  obtain ⟨k, hk, hlen⟩ := packed.num
  have loop := rem_loop (B := []) packed list attrs editable floats offset inside only hk
  refine ⟨(a :: A).map (movedEntry m.vertformat (n * m.vertformat)),
    ((verts vs k m.vertices).map (without o n)).flatten, ?_, ?_, ?_⟩
  · unfold removeAttribute
    rw [if_neg hvf, loop]
    simp only [enumerate_snd, List.length_nil, ne_eq, not_true_eq_false, if_false, List.nil_append]
  · rw [attrs]
    exact forall₂_map_self (R := SameAttr) fun b _ => movedEntry_fields _ _ b
  · rw [List.length_flatten, List.map_map, List.map_congr_left (g := fun _ => vs - n)]
    · simp only [List.map_const', verts_length, List.sum_replicate, smul_eq_mul, hk]
      push_cast [show n ≤ vs by omega]
      ring
    · intro w hw
      obtain ⟨i, hi, rfl⟩ := List.mem_map.1 hw
      exact without_length inside (vert_length hlen (List.mem_range.1 hi))

theorem removeAttribute_none {m : OldMesh F} (format : m.vertformat ≠ 0)
    (editable : ∀ b ∈ m.vattrs, EditableAttr b) {u : Int} (other : ∀ b ∈ m.vattrs, b.usage ≠ u) :
    removeAttribute m u = (m, none) := by
  unfold removeAttribute
  rw [if_neg format, trav_other format]
  · simp only [ne_eq, not_true_eq_false, if_false, List.map_map, Function.comp_def]
    have := enumerate_snd m.vattrs
    rw [this]
  · intro x hx
    obtain ⟨i, hi, rfl⟩ := List.mem_mapIdx.1 hx
    exact ⟨editable _ (by simp), other _ (by simp)⟩

theorem removeAttribute_tuple {m : OldMesh F} (format : m.vertformat ≠ 0)
    (tuple : m.vertsList = false) (verts : 0 < m.vertnum)
    (editable : ∀ b ∈ m.vattrs, EditableAttr b) {u : Int} (some_entry : ∃ b ∈ m.vattrs, b.usage = u) :
    removeAttribute m u = (m, some .typeError) := by
  obtain ⟨B, a, A, attrs, ha, hB⟩ : ∃ B a A, m.vattrs = B ++ a :: A ∧ a.usage = u ∧
      ∀ b ∈ B, b.usage ≠ u := by
    clear editable
    revert some_entry
    induction m.vattrs with
    | nil => rintro ⟨b, hb, -⟩; simp at hb
    | cons c cs ih =>
      rintro ⟨b, hb, hu⟩
      by_cases hc : c.usage = u
      · exact ⟨[], c, cs, rfl, hc, by simp⟩
      · rcases List.mem_cons.1 hb with rfl | hb
        · exact absurd hu hc
        · obtain ⟨B, a, A, h1, h2, h3⟩ := ih ⟨b, hb, hu⟩
          refine ⟨c :: B, a, A, by rw [h1]; rfl, h2, ?_⟩
          intro x hx
          rcases List.mem_cons.1 hx with rfl | hx
          · exact hc
          · exact h3 x hx
  have split : enumerate m.vattrs =
      enumerate B ++ (B.length, a) :: A.mapIdx fun i b => (i + 1 + B.length, b) := by
    unfold enumerate
    rw [attrs, List.mapIdx_append, List.mapIdx_cons]
    simp
  obtain ⟨n, -, hr⟩ := remAttr_ok format (editable a (by rw [attrs]; simp))
  have step : ∀ vsize : Int, ∃ s : RemSt F, s.verts = m.vertices ∧
      remStep m vsize u ⟨m.vertices, 0, 0⟩ (B.length, a) = (s, (B.length, a), some .typeError) := by
    intro vsize
    unfold remStep
    simp only [hr, ha, if_true, true_and, verts, tuple]
    exact ⟨_, rfl, rfl⟩
  obtain ⟨s, hs, hstep⟩ := step (intTrueDiv m.vertstride m.vertformat)
  have e : enumerate B ++ (B.length, a) :: A.mapIdx (fun i b => (i + 1 + B.length, b)) =
      enumerate m.vattrs := split.symm
  unfold removeAttribute
  rw [if_neg format, split, trav_append, trav_other format]
  · simp only [ne_eq, not_true_eq_false, if_false, List.map_id']
    rw [trav, hstep]
    simp only [e, enumerate_snd, hs]
  · intro x hx
    obtain ⟨i, hi, rfl⟩ := List.mem_mapIdx.1 hx
    exact ⟨editable _ (by rw [attrs]; simp), hB _ (by simp)⟩

theorem removeAttribute_bad {m : OldMesh F} (format : m.vertformat ≠ 0) {B A : List VAttr} {a : VAttr}
    {u : Int} {e : Err} (attrs : m.vattrs = B ++ a :: A)
    (before : ∀ b ∈ B, EditableAttr b ∧ b.usage ≠ u) (bad : remAttr m.vertformat a = .error e) :
    removeAttribute m u = (m, some e) := by
  have split : enumerate m.vattrs =
      enumerate B ++ (B.length, a) :: A.mapIdx fun i b => (i + 1 + B.length, b) := by
    unfold enumerate
    rw [attrs, List.mapIdx_append, List.mapIdx_cons]
    simp
  have hstep : ∀ (vsize : Int) (s : RemSt F),
      remStep m vsize u s (B.length, a) = (s, (B.length, a), some e) := by
    intro vsize s
    unfold remStep
    simp only [bad]
  have e' : enumerate B ++ (B.length, a) :: A.mapIdx (fun i b => (i + 1 + B.length, b)) =
      enumerate m.vattrs := split.symm
  unfold removeAttribute
  rw [if_neg format, split, trav_append, trav_other format]
  · simp only [ne_eq, not_true_eq_false, if_false, List.map_id']
    rw [trav, hstep]
    simp only [e', enumerate_snd]
  · intro x hx
    obtain ⟨i, hi, rfl⟩ := List.mem_mapIdx.1 hx
    exact before _ (by simp)

theorem copy_zero {m o : OldMesh F} (verts : m.vertsList = true) (index : m.indexList = true)
    (zero : m.vertformat = 0 ∨ m.vertstride = 0) :
    (copyGeomTable m o).2.2 = some .zeroDivisionError := by
  have hm : ∀ s, ∀ a : Mat F, (copyMat m o s a).2.2 = none ∨
      (copyMat m o s a).2.2 = some .zeroDivisionError := by
    intro s a
    unfold copyMat
    split
    · exact .inr rfl
    · simp [verts, index]
  have hl : ∀ s, ∀ l : OldLod F, (copyLod m o s l).2.2 = none ∨
      (copyLod m o s l).2.2 = some .zeroDivisionError := fun s l =>
    trav_only (l := l.materials) (fun s a _ => hm s a) s
  have hg : ∀ s, ∀ g : OldGeom F, (copyGeom m o s g).2.2 = none ∨
      (copyGeom m o s g).2.2 = some .zeroDivisionError := fun s g =>
    trav_only (l := g.lods) (fun s l _ => hl s l) { s with geoms := s.geoms + 1 }
  have h := trav_only (l := o.geoms) (fun s g _ => hg s g) ⟨m.vertices, m.index, 0⟩
  unfold copyGeomTable
  rcases ht : trav (copyGeom m o) ⟨m.vertices, m.index, 0⟩ o.geoms with ⟨s, gs, _ | e⟩
  · simp only [if_pos zero]
  · rw [ht] at h
    simpa using h

end Bf2
