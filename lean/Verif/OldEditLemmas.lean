import Verif.OldEditSpec
import Verif.BoundsLemmas
import Verif.MergeLemmas
import Verif.ReorderLemmas
import Verif.FloatLemmas
import Verif.OldSpec
import Verif.TranslateLemmas

/-!
# Lemmas about the editing methods of `/repo/deprecated/modmesh.py`
-/

namespace Bf2

variable {F : Type}

/-! ## Vertex objects and their floats -/

theorem oldTypeKnown_iff (t : Int) : oldTypeKnown t = true ↔ OldKnownType t := by
  simp only [oldTypeKnown, OldKnownType, Bool.or_eq_true, Bool.and_eq_true, decide_eq_true_eq,
    beq_iff_eq, List.mem_cons, List.not_mem_nil, or_false]
  omega

theorem oldFloats_declLen {t : Int} {n : Nat} (h : oldFloats t = some n) :
    oldDeclLen t = .ok n ∧ t ≠ 17 := by
  unfold oldFloats at h
  split at h <;> first | (injection h with h; subst h; exact ⟨rfl, by decide⟩) | simp at h

theorem oldAttr_ok {vf : Int} {a : VAttr} (hvf : vf ≠ 0) (ht : OldKnownType a.vartype)
    (hu : KnownUsage a.usage) : oldAttr vf a = .ok (intTrueDiv a.offset vf) := by
  unfold oldAttr
  rw [if_neg hvf, (oldTypeKnown_iff _).2 ht, (usageKnown_iff _).2 hu]
  rfl

/-- The floats `w` are those of the vertex object `v`, in the order of the attribute table. -/
inductive Holds (v : VObj F) : List VAttr → List F → Prop
  | done : Holds v [] []
  | unused {a as w} : a.flag = 255 → Holds v as w → Holds v (a :: as) w
  | used {a as x w} : a.flag ≠ 255 → oldFloats a.vartype = some x.length → v a.usage = some x →
      Holds v as w → Holds v (a :: as) (x ++ w)

theorem flatMapE_write {vf : Int} (hvf : vf ≠ 0) {v : VObj F} {attrs : List VAttr} {w : List F}
    (known : ∀ a ∈ attrs, OldKnownType a.vartype ∧ KnownUsage a.usage) (h : Holds v attrs w) :
    flatMapE (writeAttr vf v) attrs = .ok w := by
  induction h with
  | done => rfl
  | @unused a as w hf _ ih =>
    have ha := known a (by simp)
    rw [flatMapE, writeAttr, oldAttr_ok hvf ha.1 ha.2]
    simp only [hf, if_true]
    rw [ih fun b hb => known b (by simp [hb])]
    rfl
  | @used a as x w hf _ hv _ ih =>
    have ha := known a (by simp)
    rw [flatMapE, writeAttr, oldAttr_ok hvf ha.1 ha.2]
    simp only [hf, if_false, hv]
    rw [ih fun b hb => known b (by simp [hb])]

theorem flatten_ok {vs : Nat} {m : OldMesh F} (hp : PackedTable vs m.vertformat m.vertstride m.vattrs)
    {vo : List (VObj F)} {ws : List (List F)}
    (h : List.Forall₂ (fun v w => Holds v m.vattrs w) vo ws) : flatten m vo = .ok ws.flatten := by
  unfold flatten
  induction h with
  | nil => rfl
  | cons hv _ ih =>
    rw [flatMapE, flatMapE_write hp.format hp.known hv, ih]
    rfl

/-- Usages of the attributes in use. -/
def usedUsages (attrs : List VAttr) : List Int := (attrs.filter fun a => a.flag != 255).map VAttr.usage

theorem Holds.congr {v v' : VObj F} {attrs : List VAttr} {w : List F} (h : Holds v attrs w)
    (heq : ∀ u ∈ usedUsages attrs, v' u = v u) : Holds v' attrs w := by
  induction h with
  | done => exact .done
  | @unused a as w hf _ ih =>
    refine .unused hf (ih ?_)
    intro u hu
    apply heq
    simpa [usedUsages, hf] using hu
  | @used a as x w hf hn hv _ ih =>
    refine .used hf hn ?_ (ih ?_)
    · rw [heq _ (by simp [usedUsages, hf]), hv]
    · intro u hu
      apply heq
      simp only [usedUsages, List.mem_map, List.mem_filter] at hu ⊢
      obtain ⟨b, ⟨hb, hb'⟩, rfl⟩ := hu
      exact ⟨b, ⟨by simp [hb], hb'⟩, rfl⟩

/-- Reading the attributes of a table from float `o` on. -/
theorem foldE_read {vs o : Nat} {m : OldMesh F} {attrs : List VAttr} (i : Nat)
    (hvf : m.vertformat ≠ 0) (hsmall : vs ≤ 65535)
    (known : ∀ a ∈ attrs, OldKnownType a.vartype ∧ KnownUsage a.usage)
    (hp : Packs m.vertformat vs o attrs) (hd : (usedUsages attrs).Nodup)
    (hlen : (i + 1) * vs ≤ m.vertices.length) (s : VObj F) :
    ∃ v, foldE (readAttr m i vs) s attrs = .ok v ∧ o ≤ vs ∧
      Holds v attrs ((vert vs m.vertices i).drop o) ∧ ∀ u, u ∉ usedUsages attrs → v u = s u := by
  induction hp generalizing s with
  | done =>
    refine ⟨s, rfl, le_rfl, ?_, fun _ _ => rfl⟩
    rw [List.drop_eq_nil_of_le (by simp [vert])]
    exact .done
  | @unused o a as hf hp ih =>
    have ha := known a (by simp)
    have hu : usedUsages (a :: as) = usedUsages as := by simp [usedUsages, hf]
    rw [hu] at hd ⊢
    obtain ⟨v, hv, ho, hh, hk⟩ := ih (fun b hb => known b (by simp [hb])) hd s
    refine ⟨v, ?_, ho, .unused hf hh, hk⟩
    rw [foldE, readAttr, oldAttr_ok hvf ha.1 ha.2]
    simp only [hf, if_true]
    exact hv
  | @used o n a as hf hn hoff hp ih =>
    have ha := known a (by simp)
    have hu : usedUsages (a :: as) = a.usage :: usedUsages as := by simp [usedUsages, hf]
    rw [hu] at hd ⊢
    obtain ⟨hnot, hd⟩ := List.nodup_cons.1 hd
    obtain ⟨hdl, h17⟩ := oldFloats_declLen hn
    set x := pySlice m.vertices ((i : Int) * vs + o) (i * vs + o + n) with hx
    obtain ⟨v, hv, ho, hh, hk⟩ := ih (fun b hb => known b (by simp [hb])) hd (VObj.set s a.usage x)
    have hle : i * vs + vs ≤ m.vertices.length := by
      have := hlen; rw [Nat.add_mul, Nat.one_mul] at this; exact this
    have hxe : x = ((vert vs m.vertices i).drop o).take n := by
      have : x = pySlice m.vertices ((i * vs + o : Nat) : Int) ((i * vs + o + n : Nat) : Int) := by
        rw [hx]; push_cast; rfl
      rw [this, pySlice_nat, vert, List.drop_take, List.drop_drop, List.take_take]
      congr 1
      omega
    have hxl : x.length = n := by
      rw [hxe, List.length_take, List.length_drop, vert, List.length_take, List.length_drop]
      omega
    refine ⟨v, ?_, by omega, ?_, ?_⟩
    · rw [foldE, readAttr, oldAttr_ok hvf ha.1 ha.2]
      simp only [hf, if_false, h17, hdl]
      rw [intTrueDiv_exact hvf hoff (by
        rw [abs_of_nonneg (by positivity)]
        have : (o : ℤ) ≤ 65535 := by omega
        exact le_trans this (by norm_num))]
      exact hv
    · rw [← List.take_append_drop n ((vert vs m.vertices i).drop o), ← hxe, List.drop_drop]
      refine .used hf (by rw [hxl]; exact hn) ?_ hh
      rw [hk _ hnot]
      simp [VObj.set]
    · intro u hu'
      rw [hk u (fun h => hu' (by simp [h]))]
      have : u ≠ a.usage := fun h => hu' (by simp [h])
      simp [VObj.set, this]

theorem getVertex_holds {vs : Nat} {m : OldMesh F}
    (hp : PackedTable vs m.vertformat m.vertstride m.vattrs) (i : Nat)
    (hlen : (i + 1) * vs ≤ m.vertices.length) :
    ∃ v, getVertex m i = .ok v ∧ Holds v m.vattrs (vert vs m.vertices i) := by
  obtain ⟨v, hv, -, hh, -⟩ := foldE_read i hp.format hp.small hp.known hp.packs hp.distinct hlen
    (fun _ => none)
  refine ⟨v, ?_, by simpa using hh⟩
  unfold getVertex
  rw [if_neg hp.format, intTrueDiv_exact hp.format hp.stride (by
    rw [abs_of_nonneg (by positivity)]
    have : (vs : ℤ) ≤ 65535 := by exact_mod_cast hp.small
    exact le_trans this (by norm_num))]
  exact hv

theorem mapE_forall₂ {α β γ : Type} {f : α → Except Err β} {g : α → γ} {R : β → γ → Prop}
    {l : List α} (h : ∀ a ∈ l, ∃ b, f a = .ok b ∧ R b (g a)) :
    ∃ bs, mapE f l = .ok bs ∧ List.Forall₂ R bs (l.map g) := by
  induction l with
  | nil => exact ⟨[], rfl, .nil⟩
  | cons a as ih =>
    obtain ⟨b, hb, hr⟩ := h a (by simp)
    obtain ⟨bs, hbs, hrs⟩ := ih fun x hx => h x (by simp [hx])
    exact ⟨b :: bs, by rw [mapE, hb, hbs], .cons hr hrs⟩

/-- The vertices of an array, one by one. -/
def verts (vs n : Nat) (l : List F) : List (List F) := (List.range n).map (vert vs l)

theorem getVertices_holds {vs n : Nat} {m : OldMesh F}
    (hp : PackedTable vs m.vertformat m.vertstride m.vattrs) (hn : m.vertnum = n)
    (hlen : m.vertices.length = n * vs) :
    ∃ vo, getVertices m = .ok vo ∧
      List.Forall₂ (fun v w => Holds v m.vattrs w) vo (verts vs n m.vertices) := by
  unfold getVertices verts
  rw [hn, Int.toNat_natCast]
  apply mapE_forall₂
  intro i hi
  apply getVertex_holds hp
  rw [hlen]
  exact Nat.mul_le_mul_right _ (List.mem_range.1 hi)

theorem verts_length (vs n : Nat) (l : List F) : (verts vs n l).length = n := by simp [verts]

theorem verts_flatten {vs n : Nat} {l : List F} (h : l.length = n * vs) :
    (verts vs n l).flatten = l := by
  unfold verts
  induction n generalizing l with
  | zero =>
    rw [Nat.zero_mul, List.length_eq_zero_iff] at h
    simp [h]
  | succ n ih =>
    rw [List.range_succ_eq_map, List.map_cons, List.map_map, List.flatten_cons]
    have h' : (l.drop vs).length = n * vs := by
      rw [List.length_drop, h, Nat.add_mul, Nat.one_mul, Nat.add_sub_cancel]
    have : (vert vs l ∘ Nat.succ) = vert vs (l.drop vs) := by
      funext i
      simp only [vert, Function.comp, List.drop_drop]
      rw [Nat.succ_mul, Nat.add_comm]
    rw [this, ih h']
    simp [vert]

theorem Packed.num {vs : Nat} {m : OldMesh F} (h : Packed vs m) :
    ∃ n : Nat, m.vertnum = n ∧ m.vertices.length = n * vs := by
  have hpos := h.table.pos
  have hc := h.count
  have h0 : 0 ≤ m.vertnum := by
    by_contra hneg
    have : m.vertnum * (vs : Int) < 0 := Int.mul_neg_of_neg_of_pos (by omega) (by omega)
    omega
  obtain ⟨n, hn⟩ := Int.eq_ofNat_of_zero_le h0
  refine ⟨n, hn, ?_⟩
  rw [hn] at hc
  exact_mod_cast hc

/-! ## Replacing an attribute -/

theorem Holds.length {v : VObj F} {attrs : List VAttr} {w : List F} (h : Holds v attrs w)
    {vf : Int} {vs o : Nat} (hp : Packs vf vs o attrs) : o + w.length = vs := by
  induction h generalizing o with
  | done => cases hp; simp
  | unused hf _ ih =>
    cases hp with
    | unused _ hp => exact ih hp
    | used hf' _ _ _ => exact absurd hf hf'
  | used hf hn _ _ ih =>
    cases hp with
    | unused hf' _ => exact absurd hf' hf
    | used _ hn' _ hp =>
      rw [hn] at hn'
      injection hn' with hn'
      have := ih hp
      rw [List.length_append]
      omega

/-- The floats of the attribute with usage `u` are those from `q` on. -/
theorem Holds.at {v : VObj F} {attrs : List VAttr} {w : List F} (h : Holds v attrs w)
    {vf : Int} (hvf : vf ≠ 0) {vs o q : Nat} (hp : Packs vf vs o attrs)
    (hd : (usedUsages attrs).Nodup) {u : Int} (hf3 : Float3At vf attrs u q) :
    ∃ k pre x y z post, q = o + k ∧ w = pre ++ [x, y, z] ++ post ∧ pre.length = k ∧
      v u = some [x, y, z] ∧
      ∀ x' y' z', Holds (v.set u [x', y', z']) attrs (pre ++ [x', y', z'] ++ post) := by
  induction h generalizing o with
  | done => obtain ⟨a, ha, -⟩ := hf3; simp at ha
  | @unused a as w hf h ih =>
    cases hp with
    | used hf' _ _ _ => exact absurd hf hf'
    | unused _ hp =>
      have hu : usedUsages (a :: as) = usedUsages as := by simp [usedUsages, hf]
      rw [hu] at hd
      obtain ⟨b, hb, hb1, hb2⟩ := hf3
      rcases List.mem_cons.1 hb with rfl | hb
      · exact absurd hf hb1
      obtain ⟨k, pre, x, y, z, post, e1, e2, e3, e4, e5⟩ := ih hp hd ⟨b, hb, hb1, hb2⟩
      exact ⟨k, pre, x, y, z, post, e1, e2, e3, e4, fun x' y' z' => .unused hf (e5 x' y' z')⟩
  | @used a as l w hf hn hv h ih =>
    cases hp with
    | unused hf' _ => exact absurd hf' hf
    | used _ hn' hoff hp =>
      have hu : usedUsages (a :: as) = a.usage :: usedUsages as := by simp [usedUsages, hf]
      rw [hu] at hd
      obtain ⟨hnot, hd⟩ := List.nodup_cons.1 hd
      rw [hn] at hn'
      injection hn' with hn'
      obtain ⟨b, hb, hb1, hb2, hb3, hb4⟩ := hf3
      rcases List.mem_cons.1 hb with rfl | hb
      · rw [hb3] at hn
        have hl : l.length = 3 := by
          have : oldFloats 2 = some 3 := rfl
          rw [this] at hn; injection hn with hn; exact hn.symm
        rw [hoff] at hb4
        have hq : q = o := by
          have := Int.eq_of_mul_eq_mul_left hvf hb4
          omega
        match l, hl with
        | [x, y, z], _ =>
          refine ⟨0, [], x, y, z, w, by omega, by simp, rfl, by rw [← hb2]; exact hv, ?_⟩
          intro x' y' z'
          have e : [] ++ [x', y', z'] ++ w = [x', y', z'] ++ w := by simp
          rw [e]
          refine .used hf (by rw [hb3]; rfl) (by simp [VObj.set, hb2]) (h.congr ?_)
          intro u' hu'
          have : u' ≠ u := fun hh => hnot (by rw [hb2, ← hh]; exact hu')
          simp [VObj.set, this]
      · have hne : b.usage ≠ a.usage := by
          intro hh
          apply hnot
          rw [← hh]
          exact List.mem_map.2 ⟨b, List.mem_filter.2 ⟨hb, by simpa using hb1⟩, rfl⟩
        obtain ⟨k, pre, x, y, z, post, e1, e2, e3, e4, e5⟩ := ih hp hd ⟨b, hb, hb1, hb2, hb3, hb4⟩
        refine ⟨l.length + k, l ++ pre, x, y, z, post, by omega, by rw [e2]; simp, by simp [e3], e4, ?_⟩
        intro x' y' z'
        have e : l ++ pre ++ [x', y', z'] ++ post = l ++ (pre ++ [x', y', z'] ++ post) := by simp
        rw [e]
        refine .used hf hn ?_ (e5 x' y' z')
        have : a.usage ≠ u := fun hh => hne (by rw [hb2, hh])
        simp [VObj.set, this, hv]

/-! ## update_vertices -/

theorem intDivDiv_exact {n a b : Int} {k v : Int} (hb : b ≠ 0) (hv : v ≠ 0) (ha : a = b * v)
    (hn : n = k * v) (hk : |n| ≤ 2 ^ 53) (hv' : |v| ≤ 2 ^ 53) : intDivDiv n a b = k := by
  unfold intDivDiv
  have h1 : (a : ℚ) / b = v := by
    rw [ha]; push_cast; field_simp
  have h2 : (n : ℚ) / (v : ℚ) = k := by
    rw [hn]; push_cast
    have : (v : ℚ) ≠ 0 := by exact_mod_cast hv
    field_simp
  have hkk : |k| ≤ 2 ^ 53 := by
    refine le_trans ?_ hk
    rw [hn, abs_mul]
    have : 1 ≤ |v| := Int.one_le_abs hv
    nlinarith [abs_nonneg k]
  rw [h1, rndVal_int hk, rndVal_int hv', h2, rndVal_int hkk, truncQ_int]

section
variable [FArith F]

theorem updateVertices_eq {vs : Nat} {m : OldMesh F}
    (hp : PackedTable vs m.vertformat m.vertstride m.vattrs) {vo : List (VObj F)} {ws : List (List F)}
    (h : List.Forall₂ (fun v w => Holds v m.vattrs w) vo ws) (hsmall : ws.length * vs ≤ 2 ^ 53) :
    updateVertices m vo = oldUpdateBoundaries { m with
      vertices := ws.flatten, vertsList := false, vertnum := ws.length } ∧
    ws.flatten.length = ws.length * vs := by
  have hl : ws.flatten.length = ws.length * vs := by
    have : ∀ w ∈ ws, w.length = vs := by
      intro w hw
      obtain ⟨i, hi⟩ := List.mem_iff_getElem?.1 hw
      have hv := List.forall₂_iff_get.1 h
      have hlt : i < ws.length := by
        by_contra hge
        rw [List.getElem?_eq_none (by omega)] at hi
        simp at hi
      have hh := hv.2 i (by omega) hlt
      rw [List.getElem?_eq_getElem hlt] at hi
      injection hi with hi
      have := hh.length hp.packs
      simp only [List.get_eq_getElem, hi] at this
      omega
    rw [List.length_flatten, List.map_congr_left this, List.map_const', List.sum_replicate]
    rfl
  refine ⟨?_, hl⟩
  unfold updateVertices
  rw [flatten_ok hp h]
  have hst : m.vertstride ≠ 0 := by
    rw [hp.stride]
    have := hp.pos
    exact mul_ne_zero hp.format (by omega)
  have hno : ¬ (m.vertformat = 0 ∨ m.vertstride = 0) := by
    rintro (h | h)
    · exact hp.format h
    · exact hst h
  simp only [if_neg hno]
  rw [intDivDiv_exact (k := ws.length) hp.format (by have := hp.pos; omega) hp.stride
    (by rw [hl]; push_cast; rfl)
    (by rw [abs_of_nonneg (by positivity), hl]; exact_mod_cast hsmall)
    (by
      rw [abs_of_nonneg (by positivity)]
      have : (vs : ℤ) ≤ 65535 := by exact_mod_cast hp.small
      exact le_trans this (by norm_num))]

end

/-! ## The loops of `translate` and `rotate` -/

theorem foldE_pick {H : VObj F → List F → Prop} {edit : VObj F → Except Err (VObj F)}
    {E : List F → List F} (step : ∀ v w, H v w → ∃ v', edit v = .ok v' ∧ H v' (E w))
    (ids : List Nat) (ids0 : List Nat) (objs : List (VObj F)) (ws : List (List F))
    (h : List.Forall₂ H objs ws) (hlt : ∀ i ∈ ids, i < ws.length) :
    ∃ objs', foldE (pickVertex edit) ⟨objs, ids0⟩ ids = .ok ⟨objs', ids0 ++ ids⟩ ∧
      List.Forall₂ H objs' (ids.foldl (fun ws i => ws.modify i E) ws) := by
  induction ids generalizing ids0 objs ws with
  | nil => exact ⟨objs, by simp [foldE], h⟩
  | cons i is ih =>
    have hi := hlt i (by simp)
    have hlen := h.length_eq
    have hw : objs[i]? = some objs[i] := List.getElem?_eq_getElem (by omega)
    have hh : H objs[i] ws[i] := (List.forall₂_iff_get.1 h).2 i (by omega) hi
    obtain ⟨v', hv', hH⟩ := step _ _ hh
    have hset : List.Forall₂ H (objs.set i v') (ws.modify i E) := by
      rw [List.forall₂_iff_get]
      refine ⟨by simp [hlen], fun j h1 h2 => ?_⟩
      simp only [List.get_eq_getElem, List.getElem_set, List.getElem_modify]
      split
      · rename_i hij
        subst hij
        exact hH
      · exact (List.forall₂_iff_get.1 h).2 j (by simpa using h1) (by simpa using h2)
    obtain ⟨objs', h1, h2⟩ := ih (ids0 ++ [i]) (objs.set i v') (ws.modify i E) hset
      (fun j hj => by rw [List.length_modify]; exact hlt j (by simp [hj]))
    refine ⟨objs', ?_, by simpa using h2⟩
    rw [foldE]
    unfold pickVertex
    rw [hw]
    simp only [hv']
    have : ids0 ++ i :: is = ids0 ++ [i] ++ is := by simp
    rw [this]
    exact h1

theorem foldl_modify_getElem? {α : Type} (E : α → α) (ids : List Nat) (ws : List α) (j : Nat) :
    (ids.foldl (fun ws i => ws.modify i E) ws)[j]? = ws[j]?.map E^[ids.count j] := by
  induction ids generalizing ws with
  | nil => simp
  | cons i is ih =>
    rw [List.foldl_cons, ih, List.getElem?_modify, List.count_cons]
    by_cases hij : i = j
    · subst hij
      cases ws[i]? <;> simp
    · simp [hij]

theorem forall₂_filterMap {α β : Type} {R : α → β → Prop} {as : List α} {bs : List β}
    (h : List.Forall₂ R as bs) (ids : List Nat) :
    List.Forall₂ R (ids.filterMap fun i => as[i]?) (ids.filterMap fun i => bs[i]?) := by
  have hl := h.length_eq
  induction ids with
  | nil => exact .nil
  | cons i is ih =>
    by_cases hi : i < bs.length
    · rw [List.filterMap_cons_some (List.getElem?_eq_getElem (by omega : i < as.length)),
        List.filterMap_cons_some (List.getElem?_eq_getElem hi)]
      exact .cons ((List.forall₂_iff_get.1 h).2 i (by omega) hi) ih
    · rw [List.filterMap_cons_none (List.getElem?_eq_none (by omega)),
        List.filterMap_cons_none (List.getElem?_eq_none (by omega))]
      exact ih

theorem matIds_eq {n : Nat} {a : Mat F} (h0 : 0 ≤ a.vstart) (h1 : 0 ≤ a.vnum)
    (h2 : a.vstart + a.vnum ≤ n) : matIds n a = a.ids := by
  unfold matIds Mat.ids
  rw [pySlice_block _ h0 h1]
  unfold block
  apply List.ext_getElem
  · simp; omega
  · intro i h3 h4
    simp

theorem mats_flatMap_ids {m : OldMesh F} {n : Nat} (hn : m.vertnum = n) (hin : VertsExist m) :
    m.mats.flatMap (matIds n) = m.ids := by
  unfold OldMesh.ids
  apply List.flatMap_congr
  intro a ha
  obtain ⟨h0, h1, h2⟩ := hin a ha
  exact matIds_eq h0 h1 (by omega)

theorem ids_lt {m : OldMesh F} {n : Nat} (hn : m.vertnum = n) (hin : VertsExist m) :
    ∀ i ∈ m.ids, i < n := by
  intro i hi
  obtain ⟨a, ha, hia⟩ := List.mem_flatMap.1 hi
  obtain ⟨h0, h1, h2⟩ := hin a ha
  have := List.mem_range'_1.1 hia
  omega

/-- The floats of the vertices `translate` and `rotate` write, in order: those of all materials, each
changed once for every time a material has it. -/
def editedVerts (vs : Nat) (E : List F → List F) (m : OldMesh F) : List (List F) :=
  m.ids.map fun i => E^[m.ids.count i] (vert vs m.vertices i)

theorem oldEdit_eq [FArith F] {vs : Nat} {m : OldMesh F} (hp : Packed vs m) (hin : VertsExist m)
    (hsmall : m.ids.length * vs ≤ 2 ^ 53) {edit : VObj F → Except Err (VObj F)}
    {E : List F → List F}
    (step : ∀ v w, Holds v m.vattrs w → ∃ v', edit v = .ok v' ∧ Holds v' m.vattrs (E w)) :
    oldEdit edit m = oldUpdateBoundaries { m with
      vertices := (editedVerts vs E m).flatten, vertsList := false, vertnum := m.ids.length } ∧
    (editedVerts vs E m).flatten.length = m.ids.length * vs := by
  obtain ⟨n, hn, hlen⟩ := hp.num
  obtain ⟨vo, hvo, hh⟩ := getVertices_holds hp.table hn hlen
  have hvl : vo.length = n := by rw [hh.length_eq, verts_length]
  obtain ⟨objs', hf, hh'⟩ := foldE_pick step m.ids [] vo _ hh (by
    rw [verts_length]; exact ids_lt hn hin)
  have hsel := forall₂_filterMap hh' m.ids
  have hws : (m.ids.filterMap fun i => (m.ids.foldl (fun ws i => ws.modify i E)
      (verts vs n m.vertices))[i]?) = editedVerts vs E m := by
    unfold editedVerts
    rw [← List.filterMap_eq_map]
    apply List.filterMap_congr
    intro i hi
    have := ids_lt hn hin i hi
    rw [foldl_modify_getElem?]
    unfold verts
    rw [List.getElem?_map, List.getElem?_range this]
    rfl
  rw [hws] at hsel
  have hle : (editedVerts vs E m).length = m.ids.length := by simp [editedVerts]
  obtain ⟨h1, h2⟩ := updateVertices_eq hp.table hsel (by rw [hle]; exact hsmall)
  rw [hle] at h1 h2
  refine ⟨?_, h2⟩
  unfold oldEdit
  rw [hvo]
  simp only [hvl]
  rw [mats_flatMap_ids hn hin, hf]
  simpa using h1

/-! ## update_boundaries -/

section
variable [FArith F]

theorem foldl_outwards [LawfulLt F] (ps : List (Vec3 F)) (b : Box F) (c : Fin 3) :
    (∀ x, FArith.lt x (b.min.comp c) = false →
      FArith.lt x ((ps.foldl Box.extend b).min.comp c) = false) ∧
    ∀ x, FArith.lt (b.max.comp c) x = false →
      FArith.lt ((ps.foldl Box.extend b).max.comp c) x = false := by
  induction ps generalizing b with
  | nil => exact ⟨fun _ h => h, fun _ h => h⟩
  | cons p ps ih =>
    refine ⟨fun x hx => (ih (b.extend p)).1 x ?_, fun x hx => (ih (b.extend p)).2 x ?_⟩
    · rw [extend_min, minUpd]
      split
      · rename_i hlt
        by_contra hc
        have := LawfulLt.trans _ _ _ (by simpa using hc) hlt
        rw [hx] at this
        simp at this
      · exact hx
    · rw [extend_max, maxUpd]
      split
      · rename_i hlt
        by_contra hc
        have := LawfulLt.trans _ _ _ hlt (by simpa using hc)
        rw [hx] at this
        simp at this
      · exact hx

theorem grown_foldl [LawfulLt F] (ps : List (Vec3 F)) (b : Box F) (P : Vec3 F → Prop)
    (hP : ∀ x, x ∈ ps ↔ P x) :
    BoxGrown b.min b.max (ps.foldl Box.extend b).min (ps.foldl Box.extend b).max P where
  covers := fun x hx => fold_covers ps b x ((hP x).2 hx)
  outwards := fun c => ⟨(foldl_outwards ps b c).1 _ (LawfulLt.irrefl _),
    (foldl_outwards ps b c).2 _ (LawfulLt.irrefl _)⟩
  tight := fun c => by
    obtain ⟨h1, h2⟩ := fold_tight ps b c
    refine ⟨h1.imp id ?_, h2.imp id ?_⟩
    · rintro ⟨x, hx, e⟩; exact ⟨x, (hP x).1 hx, e⟩
    · rintro ⟨x, hx, e⟩; exact ⟨x, (hP x).1 hx, e⟩

theorem foldS_bound (objs : List (VObj F)) (ps : List (Vec3 F)) (s : Bounds2 F)
    (h : List.Forall₂ (fun v p => v 0 = some (Vec3.toList p)) objs ps) :
    foldS oldBoundVertex s objs =
      (⟨ps.foldl Box.extend s.lod, ps.foldl Box.extend s.mat⟩, none) := by
  induction h generalizing s with
  | nil => rfl
  | cons hv _ ih =>
    rw [foldS, oldBoundVertex, hv]
    simp only [Vec3.toList]
    rw [ih]
    rfl

/-- The positions of all vertices. -/
def posList (vs o n : Nat) (l : List F) : List (Vec3 F) :=
  (List.range n).filterMap fun i => vec3At l (i * vs + o)

omit [FArith F] in
theorem holds_position {vs o n : Nat} {m : OldMesh F} {vo : List (VObj F)}
    (hp : PackedTable vs m.vertformat m.vertstride m.vattrs)
    (hpos : Float3At m.vertformat m.vattrs 0 o) (hlen : m.vertices.length = n * vs)
    (h : List.Forall₂ (fun v w => Holds v m.vattrs w) vo (verts vs n m.vertices)) :
    List.Forall₂ (fun v p => v 0 = some (Vec3.toList p)) vo (posList vs o n m.vertices) ∧
    ∀ i, (posList vs o n m.vertices)[i]? = vec3At m.vertices (i * vs + o) := by
  have key : ∀ i, i < n → ∀ v, Holds v m.vattrs (vert vs m.vertices i) →
      ∃ p, vec3At m.vertices (i * vs + o) = some p ∧ v 0 = some (Vec3.toList p) := by
    intro i hi v hv
    obtain ⟨k, pre, x, y, z, post, e1, e2, e3, e4, -⟩ := hv.at hp.format hp.packs hp.distinct hpos
    refine ⟨⟨x, y, z⟩, ?_, e4⟩
    have hk : o = k := by omega
    have g : ∀ c, c < 3 → m.vertices[i * vs + o + c]? = [x, y, z][c]? := by
      intro c hc
      have h1 : (vert vs m.vertices i)[o + c]? = [x, y, z][c]? := by
        rw [e2, List.append_assoc, List.getElem?_append_right (by omega),
          List.getElem?_append_left (by simp; omega)]
        congr 1
        omega
      rw [← h1]
      have hw := hv.length hp.packs
      have hlt : o + c < vs := by
        have := congrArg List.length e2
        simp only [List.length_append, List.length_cons, List.length_nil] at this
        omega
      unfold vert
      rw [List.getElem?_take_of_lt hlt, List.getElem?_drop]
      congr 1
      omega
    have g0 := g 0 (by omega)
    have g1 := g 1 (by omega)
    have g2 := g 2 (by omega)
    simp only [Nat.add_zero, List.getElem?_cons_zero, List.getElem?_cons_succ] at g0 g1 g2
    unfold vec3At
    rw [g0, g1, g2]
  have hvl : vo.length = n := by rw [h.length_eq, verts_length]
  have hv : ∀ i (hi : i < n), Holds (vo[i]'(by omega)) m.vattrs (vert vs m.vertices i) := by
    intro i hi
    have := (List.forall₂_iff_get.1 h).2 i (by omega) (by rw [verts_length]; omega)
    simpa [verts] using this
  have hex : ∀ i, i < n → ∃ p, vec3At m.vertices (i * vs + o) = some p := by
    intro i hi
    obtain ⟨p, hp', -⟩ := key i hi _ (hv i hi)
    exact ⟨p, hp'⟩
  have hget : ∀ n', n' ≤ n → (posList vs o n' m.vertices).length = n' ∧
      ∀ i, i < n' → (posList vs o n' m.vertices)[i]? = vec3At m.vertices (i * vs + o) := by
    intro n' hn'
    induction n' with
    | zero => exact ⟨rfl, fun i hi => absurd hi (by omega)⟩
    | succ n' ih =>
      obtain ⟨l1, l2⟩ := ih (by omega)
      obtain ⟨p, hp'⟩ := hex n' (by omega)
      have e : posList vs o (n' + 1) m.vertices = posList vs o n' m.vertices ++ [p] := by
        unfold posList
        rw [List.range_succ, List.filterMap_append]
        simp [hp']
      refine ⟨by rw [e]; simp [l1], fun i hi => ?_⟩
      rw [e]
      by_cases hin : i < n'
      · rw [List.getElem?_append_left (by omega), l2 i hin]
      · have : i = n' := by omega
        subst this
        rw [List.getElem?_append_right (by omega), l1, hp']
        simp
  obtain ⟨hl, hg⟩ := hget n le_rfl
  refine ⟨?_, fun i => ?_⟩
  · rw [List.forall₂_iff_get]
    refine ⟨by rw [hvl, hl], fun i h1 h2 => ?_⟩
    have hi : i < n := by omega
    obtain ⟨p, hp', hv0⟩ := key i hi _ (hv i hi)
    have := hg i hi
    rw [hp', List.getElem?_eq_getElem h2] at this
    injection this with this
    simp only [List.get_eq_getElem, this]
    exact hv0
  · by_cases hi : i < n
    · exact hg i hi
    · rw [List.getElem?_eq_none (by omega)]
      unfold vec3At
      rw [List.getElem?_eq_none (by
        rw [hlen]
        have : n * vs ≤ i * vs := Nat.mul_le_mul_right _ (by omega)
        omega)]

omit [FArith F] in
theorem mem_block_ids {α : Type} {ps : List α} {a : Mat F} {x : α} :
    x ∈ block ps a.vstart a.vnum ↔ ∃ i ∈ a.ids, ps[i]? = some x := by
  unfold block Mat.ids
  rw [List.mem_iff_getElem?]
  constructor
  · rintro ⟨i, hi⟩
    rw [List.getElem?_take] at hi
    split at hi
    · rw [List.getElem?_drop] at hi
      exact ⟨a.vstart.toNat + i, List.mem_range'_1.2 ⟨by omega, by omega⟩, hi⟩
    · simp at hi
  · rintro ⟨i, hi, hx⟩
    have := List.mem_range'_1.1 hi
    refine ⟨i - a.vstart.toNat, ?_⟩
    rw [List.getElem?_take, if_pos (by omega), List.getElem?_drop]
    rw [← hx]
    congr 1
    omega

omit [FArith F] in
theorem forall₂_pySlice {α β : Type} {R : α → β → Prop} {l : List α} {r : List β}
    (h : List.Forall₂ R l r) (i j : Int) : List.Forall₂ R (pySlice l i j) (pySlice r i j) := by
  unfold pySlice
  rw [h.length_eq]
  exact List.forall₂_take _ (List.forall₂_drop _ h)

/-- A material with bounds `b`. -/
def Mat.withBox (a : Mat F) (b : Box F) : Mat F := { a with mmin := some b.min, mmax := some b.max }

theorem oldBoundMats_eq {vo : List (VObj F)} {ps : List (Vec3 F)}
    (hvo : List.Forall₂ (fun v p => v 0 = some (Vec3.toList p)) vo ps) (as : List (Mat F))
    (hb : ∀ a ∈ as, a.mmin ≠ none ∧ a.mmax ≠ none)
    (hnn : ∀ a ∈ as, 0 ≤ a.vstart ∧ 0 ≤ a.vnum) (b : Box F) :
    ∃ as', trav (oldBoundMat vo) b as =
        ((as.flatMap fun a => block ps a.vstart a.vnum).foldl Box.extend b, as', none) ∧
      List.Forall₂ (fun a a' => ∃ mn mx, a.mmin = some mn ∧ a.mmax = some mx ∧
        a' = a.withBox ((block ps a.vstart a.vnum).foldl Box.extend ⟨mn, mx⟩)) as as' := by
  induction as generalizing b with
  | nil => exact ⟨[], rfl, .nil⟩
  | cons a as ih =>
    obtain ⟨h1, h2⟩ := hb a (by simp)
    obtain ⟨h3, h4⟩ := hnn a (by simp)
    obtain ⟨mn, hmn⟩ := Option.ne_none_iff_exists'.1 h1
    obtain ⟨mx, hmx⟩ := Option.ne_none_iff_exists'.1 h2
    obtain ⟨as', e1, e2⟩ := ih (fun x hx => hb x (by simp [hx])) (fun x hx => hnn x (by simp [hx]))
      ((block ps a.vstart a.vnum).foldl Box.extend b)
    refine ⟨_, ?_, .cons ⟨mn, mx, hmn, hmx, rfl⟩ e2⟩
    rw [trav]
    unfold oldBoundMat
    simp only [hmn, hmx]
    rw [foldS_bound _ _ _ (forall₂_pySlice hvo _ _), pySlice_block _ h3 h4]
    simp only
    have e1' := e1
    unfold oldBoundMat at e1'
    rw [e1', List.flatMap_cons, List.foldl_append]
    rfl

omit [FArith F] in
theorem trav_rel₂ {α : Type} {f : Unit → α → Unit × α × Option Err} {R : α → α → Prop}
    {l : List α} (h : ∀ a ∈ l, ∃ a', f () a = ((), a', none) ∧ R a a') :
    ∃ l', trav f () l = ((), l', none) ∧ List.Forall₂ R l l' := by
  induction l with
  | nil => exact ⟨[], rfl, .nil⟩
  | cons a as ih =>
    obtain ⟨a', h1, h2⟩ := h a (by simp)
    obtain ⟨as', h3, h4⟩ := ih fun x hx => h x (by simp [hx])
    exact ⟨a' :: as', by rw [trav, h1]; simp only [h3], .cons h2 h4⟩

/-- On a mesh in order, with bounds, `update_boundaries` succeeds and grows the bounds. -/
theorem oldUpdateBoundaries_eq [LawfulLt F] {vs o : Nat} {m : OldMesh F} (hp : Packed vs m)
    (hpos : Float3At m.vertformat m.vattrs 0 o) (hb : HasBounds m)
    (hnn : ∀ a ∈ m.mats, 0 ≤ a.vstart ∧ 0 ≤ a.vnum) :
    ∃ gs, oldUpdateBoundaries m = ({ m with geoms := gs }, none) ∧ BoundsGrown vs o m gs := by
  obtain ⟨n, hn, hlen⟩ := hp.num
  obtain ⟨vo, hvo, hh⟩ := getVertices_holds hp.table hn hlen
  obtain ⟨hpl, hpi⟩ := holds_position hp.table hpos hlen hh
  have hmem : ∀ a : Mat F, ∀ x, x ∈ block (posList vs o n m.vertices) a.vstart a.vnum ↔
      OldPosOf vs o m a x := by
    intro a x
    rw [mem_block_ids]
    unfold OldPosOf
    simp only [hpi]
  have hgeom : ∀ g ∈ m.geoms, ∃ g', oldBoundGeom vo () g = ((), g', none) ∧
      (g'.lodnum = g.lodnum ∧ List.Forall₂ (LodGrown vs o m) g.lods g'.lods) := by
    intro g hg
    have hlod : ∀ l ∈ g.lods, ∃ l', oldBoundLod vo () l = ((), l', none) ∧ LodGrown vs o m l l' := by
      intro l hl
      have hmat : ∀ a ∈ l.materials, a ∈ m.mats := fun a ha =>
        List.mem_flatMap.2 ⟨g, hg, List.mem_flatMap.2 ⟨l, hl, ha⟩⟩
      obtain ⟨as', e1, e2⟩ := oldBoundMats_eq hpl l.materials (fun a ha => hb a (hmat a ha))
        (fun a ha => hnn a (hmat a ha)) ⟨l.min, l.max⟩
      refine ⟨{ l with
        materials := as'
        min := ((l.materials.flatMap fun a => block (posList vs o n m.vertices) a.vstart
          a.vnum).foldl Box.extend ⟨l.min, l.max⟩).min
        max := ((l.materials.flatMap fun a => block (posList vs o n m.vertices) a.vstart
          a.vnum).foldl Box.extend ⟨l.min, l.max⟩).max },
        by unfold oldBoundLod; rw [e1], ⟨?_, ?_, rfl⟩⟩
      · refine grown_foldl _ ⟨l.min, l.max⟩ _ fun x => ?_
        rw [List.mem_flatMap]
        simp only [hmem]
      · refine e2.imp ?_
        rintro a a' ⟨mn, mx, h1, h2, h3⟩
        exact ⟨mn, mx, _, _, h1, h2, h3, grown_foldl _ ⟨mn, mx⟩ _ (hmem a)⟩
    obtain ⟨ls', h1, h2⟩ := trav_rel₂ hlod
    exact ⟨{ g with lods := ls' }, by unfold oldBoundGeom; rw [h1], rfl, h2⟩
  obtain ⟨gs, h1, h2⟩ := trav_rel₂ hgeom
  exact ⟨gs, by unfold oldUpdateBoundaries; rw [hvo]; simp only [h1], h2⟩

end

/-! ## translate -/

theorem mapIdx_middle {α : Type} (pre post : List α) (x y z : α) (f g h : α → α) :
    (pre ++ [x, y, z] ++ post).mapIdx (fun c v => if c = pre.length then f v
      else if c = pre.length + 1 then g v else if c = pre.length + 2 then h v else v) =
    pre ++ [f x, g y, h z] ++ post := by
  rw [List.mapIdx_append, List.mapIdx_append]
  congr 1
  · congr 1
    · apply List.ext_getElem
      · simp
      · intro i h1 h2
        rw [List.getElem_mapIdx, if_neg (by omega), if_neg (by omega), if_neg (by omega)]
    · have e1 : 1 + pre.length = pre.length + 1 := by omega
      have e2 : 2 + pre.length = pre.length + 2 := by omega
      simp [e1, e2]
  · apply List.ext_getElem
    · simp
    · intro i h1 h2
      rw [List.getElem_mapIdx]
      simp only [List.length_append, List.length_cons, List.length_nil]
      rw [if_neg (by omega), if_neg (by omega), if_neg (by omega)]

theorem translate_step [FArith F] {vs o : Nat} {vf st : Int} {attrs : List VAttr}
    (hp : PackedTable vs vf st attrs) (hpos : Float3At vf attrs 0 o) (d : Vec3 F) (rest : List F)
    (v : VObj F) (w : List F) (h : Holds v attrs w) :
    ∃ v', oldTranslateVertex (d.toList ++ rest) v = .ok v' ∧ Holds v' attrs (movedVert o d w) := by
  obtain ⟨k, pre, x, y, z, post, e1, e2, e3, e4, e5⟩ := h.at hp.format hp.packs hp.distinct hpos
  have hk : pre.length = o := by omega
  refine ⟨_, by unfold oldTranslateVertex; rw [e4], ?_⟩
  have := e5 (FArith.add (FArith.add FArith.zero x) d.x) (FArith.add (FArith.add FArith.zero y) d.y)
    (FArith.add (FArith.add FArith.zero z) d.z)
  unfold movedVert
  rw [e2, ← hk, mapIdx_middle]
  simpa [Vec3.toList] using this

/-! ## Tiles -/

theorem OldTiled.exist {m : OldMesh F} (h : OldTiled m) : VertsExist m := by
  intro a ha
  obtain ⟨i, hi⟩ := List.mem_iff_getElem?.1 ha
  have h1 := h.start i a hi
  have h2 := sum_take_le h.nonneg i
  have h3 := sum_take_le h.nonneg (i + 1)
  rw [sum_take_succ hi] at h3
  have h4 := sum_nonneg (l := m.mats.take i) (f := Mat.vnum)
    (fun a ha => h.nonneg a (List.mem_of_mem_take ha))
  have := h.total
  exact ⟨by omega, h.nonneg a ha, by omega⟩

theorem OldTiled.ids {m : OldMesh F} (h : OldTiled m) {n : Nat} (hn : m.vertnum = n) :
    m.ids = List.range n := by
  have h1 := blocks_drop (List.range n) 1 Mat.vstart Mat.vnum m.mats 0 le_rfl h.nonneg
    (by simpa using h.start) (by simp [← h.total, hn])
  rw [← mats_flatMap_ids hn h.exist]
  have : ∀ a ∈ m.mats, matIds n a =
      block (List.range n) (a.vstart * (1 : Nat)) (a.vnum * (1 : Nat)) := by
    intro a ha
    obtain ⟨h2, h3, -⟩ := h.exist a ha
    unfold matIds
    rw [pySlice_block _ h2 h3]
    simp
  rw [List.flatMap_congr this, h1]
  simp

theorem editedVerts_tiled {vs n : Nat} {m : OldMesh F} (h : OldTiled m) (hn : m.vertnum = n)
    (E : List F → List F) : editedVerts vs E m = (verts vs n m.vertices).map E := by
  unfold editedVerts verts
  rw [h.ids hn, List.map_map]
  apply List.map_congr_left
  intro i hi
  rw [List.count_eq_one_of_mem List.nodup_range hi]
  rfl

/-- Vertices of a list of vertices. -/
theorem vert_flatten {vs : Nat} (ws : List (List F)) (h : ∀ w ∈ ws, w.length = vs) (i : Nat)
    (hi : i < ws.length) : vert vs ws.flatten i = ws[i] := by
  unfold vert
  induction ws generalizing i with
  | nil => simp at hi
  | cons w ws ih =>
    have hw := h w (by simp)
    cases i with
    | zero => simp [hw]
    | succ i =>
      rw [List.flatten_cons, Nat.succ_mul, Nat.add_comm, ← List.drop_drop, List.drop_left' hw,
        ih (fun x hx => h x (by simp [hx])) i (by simpa using hi)]
      simp

/-! ## Meshes of the package -/

theorem oldLods_mats (k : Kind) (prev : List (Mat F)) (ls : List (Lod F)) :
    (oldLods k prev ls).flatMap OldLod.materials = ls.flatMap Lod.materials := by
  induction ls generalizing prev with
  | nil => rfl
  | cons l ls ih => rw [oldLods, List.flatMap_cons, ih, List.flatMap_cons]; rfl

theorem old_mats (m : Mesh F) : m.old.mats = m.mats := by
  have : ∀ (k : Kind) (gs : List (Geom F)) (prev : List (Mat F)),
      (oldGeoms k prev gs).flatMap (fun g => g.lods.flatMap fun l => l.materials) =
        gs.flatMap Geom.mats := by
    intro k gs
    induction gs with
    | nil => intro prev; rfl
    | cons g gs ih =>
      intro prev
      rw [oldGeoms, List.flatMap_cons, ih, List.flatMap_cons]
      congr 1
      exact oldLods_mats k prev g.lods
  exact this _ _ _

theorem old_tiled {vs : Nat} {m : Mesh F} (h : TiledVerts vs m) (hp : Packed vs m.old) :
    OldTiled m.old where
  nonneg := by rw [old_mats]; exact h.nonneg
  start := by rw [old_mats]; exact h.start
  total := by
    rw [old_mats]
    have h1 : (m.vertices.length : Int) = m.vertnum * vs := hp.count
    rw [h.total] at h1
    have := h.pos
    exact (Int.eq_of_mul_eq_mul_right (by omega) h1).symm

/-! ## What `update_boundaries` leaves alone, and when it raises -/

section
variable [FArith F]

theorem oldUpdateBoundaries_fst (m : OldMesh F) :
    ∃ gs, (oldUpdateBoundaries m).1 = { m with geoms := gs } := by
  unfold oldUpdateBoundaries
  rcases getVertices m with e | vo
  · exact ⟨m.geoms, rfl⟩
  · exact ⟨_, rfl⟩

omit [FArith F] in
/-- A loop in which nothing but `e` can be raised, and something raises it. -/
theorem trav_raises {σ α : Type} {f : σ → α → σ × α × Option Err} {e : Err} {l : List α}
    (h : ∀ s, ∀ a ∈ l, (f s a).2.2 = none ∨ (f s a).2.2 = some e)
    (hx : ∃ a ∈ l, ∀ s, (f s a).2.2 = some e) (s : σ) : (trav f s l).2.2 = some e := by
  induction l generalizing s with
  | nil => obtain ⟨a, ha, -⟩ := hx; simp at ha
  | cons a as ih =>
    rw [trav]
    rcases hf : f s a with ⟨s', a', _ | e'⟩
    · simp only
      obtain ⟨b, hb, hbe⟩ := hx
      rcases List.mem_cons.1 hb with rfl | hb
      · have := hbe s; rw [hf] at this; simp at this
      · exact ih (fun s a ha => h s a (by simp [ha])) ⟨b, hb, hbe⟩ s'
    · have := h s a (by simp)
      rw [hf] at this
      simpa using this

omit [FArith F] in
theorem trav_only {σ α : Type} {f : σ → α → σ × α × Option Err} {e : Err} {l : List α}
    (h : ∀ s, ∀ a ∈ l, (f s a).2.2 = none ∨ (f s a).2.2 = some e) (s : σ) :
    (trav f s l).2.2 = none ∨ (trav f s l).2.2 = some e := by
  induction l generalizing s with
  | nil => exact .inl rfl
  | cons a as ih =>
    rw [trav]
    have := h s a (by simp)
    rcases hf : f s a with ⟨s', a', _ | e'⟩
    · exact ih (fun s a ha => h s a (by simp [ha])) s'
    · rw [hf] at this; exact this

theorem oldUpdateBoundaries_typeError {vs o : Nat} {m : OldMesh F} (hp : Packed vs m)
    (hpos : Float3At m.vertformat m.vattrs 0 o)
    (hno : ∃ a ∈ m.mats, a.mmin = none ∨ a.mmax = none) :
    (oldUpdateBoundaries m).2 = some .typeError := by
  obtain ⟨n, hn, hlen⟩ := hp.num
  obtain ⟨vo, hvo, hh⟩ := getVertices_holds hp.table hn hlen
  obtain ⟨hpl, -⟩ := holds_position hp.table hpos hlen hh
  have hmat : ∀ (b : Box F) (a : Mat F), (oldBoundMat vo b a).2.2 = none ∨
      (oldBoundMat vo b a).2.2 = some .typeError := by
    intro b a
    unfold oldBoundMat
    split
    · left
      rw [foldS_bound _ _ _ (forall₂_pySlice hpl _ _)]
    · right; rfl
  have hlod : ∀ (u : Unit) (l : OldLod F), (oldBoundLod vo u l).2.2 = none ∨
      (oldBoundLod vo u l).2.2 = some .typeError := by
    intro u l
    exact trav_only (fun s a _ => hmat s a) _
  have hgeom : ∀ (u : Unit) (g : OldGeom F), (oldBoundGeom vo u g).2.2 = none ∨
      (oldBoundGeom vo u g).2.2 = some .typeError := by
    intro u g
    exact trav_only (fun s l _ => hlod s l) _
  obtain ⟨a, ha, hnone⟩ := hno
  obtain ⟨g, hg, ha⟩ := List.mem_flatMap.1 ha
  obtain ⟨l, hl, ha⟩ := List.mem_flatMap.1 ha
  have key : ∀ b : Box F, (oldBoundMat vo b a).2.2 = some .typeError := by
    intro b
    unfold oldBoundMat
    rcases hnone with h | h
    · rw [h]
    · rw [h]
      cases a.mmin <;> rfl
  unfold oldUpdateBoundaries
  rw [hvo]
  exact trav_raises (fun s g _ => hgeom s g) ⟨g, hg, fun s =>
    trav_raises (fun s l _ => hlod s l) ⟨l, hl, fun s =>
      trav_raises (fun s a _ => hmat s a) ⟨a, ha, key⟩ _⟩ _⟩ _

end

theorem Packs.le {vf : Int} {vs o : Nat} {attrs : List VAttr} (h : Packs vf vs o attrs) : o ≤ vs := by
  induction h with
  | done => exact le_rfl
  | unused _ _ ih => exact ih
  | used _ _ _ _ ih => omega

theorem Packs.fits {vf : Int} (hvf : vf ≠ 0) {vs o q : Nat} {attrs : List VAttr} {u : Int}
    (h : Packs vf vs o attrs) (hf : Float3At vf attrs u q) : q + 3 ≤ vs := by
  obtain ⟨b, hb, hb1, -, hb3, hb4⟩ := hf
  induction h with
  | done => simp at hb
  | unused hf _ ih =>
    rcases List.mem_cons.1 hb with rfl | hb
    · exact absurd hf hb1
    · exact ih hb
  | @used o n a as hf hn hoff hp ih =>
    rcases List.mem_cons.1 hb with rfl | hb
    · rw [hb3] at hn
      have h3 : oldFloats 2 = some 3 := rfl
      rw [h3] at hn
      injection hn with hn
      rw [hoff] at hb4
      have := Int.eq_of_mul_eq_mul_left hvf hb4
      have := hp.le
      omega
    · exact ih hb

end Bf2
