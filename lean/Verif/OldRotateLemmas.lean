import Verif.OldTransformLemmas
import Verif.RotateLemmas

/-!
# Lemmas for the rotation of `/repo/deprecated/modmesh.py`
-/

namespace Bf2

variable {F : Type}

/-- An edit of every vertex of a tiled mesh. -/
theorem oldEdit_tiled_fst [FArith F] {vs n : Nat} {m : OldMesh F} (packed : Packed vs m)
    (tiled : OldTiled m) (hn : m.vertnum = n) (hlen : m.vertices.length = n * vs)
    (small : m.vertices.length ≤ 2 ^ 53) {edit : VObj F → Except Err (VObj F)}
    {E : List F → List F}
    (step : ∀ v w, Holds v m.vattrs w → ∃ v', edit v = .ok v' ∧ Holds v' m.vattrs (E w)) :
    (oldEdit edit m).1.vertices = ((verts vs n m.vertices).map E).flatten ∧
    ((verts vs n m.vertices).map E).flatten.length = n * vs ∧
    ∀ i, i < n → vert vs ((verts vs n m.vertices).map E).flatten i = E (vert vs m.vertices i) := by
  have hid : m.ids.length = n := by rw [tiled.ids hn, List.length_range]
  obtain ⟨h1, h2⟩ := oldEdit_eq packed tiled.exist (by rw [hid, ← hlen]; exact small) step
  rw [hid, editedVerts_tiled tiled hn] at h1 h2
  obtain ⟨gs, h3⟩ := oldUpdateBoundaries_fst { m with
    vertices := ((verts vs n m.vertices).map E).flatten, vertsList := false, vertnum := n }
  refine ⟨by rw [h1, h3], h2, fun i hi => ?_⟩
  obtain ⟨vo, -, hh⟩ := getVertices_holds packed.table hn hlen
  have hv : ∀ w ∈ (verts vs n m.vertices).map E, w.length = vs := by
    intro w hw
    obtain ⟨w', hw', rfl⟩ := List.mem_map.1 hw
    obtain ⟨k, hk⟩ := List.mem_iff_getElem?.1 hw'
    obtain ⟨v, -, hvw⟩ := forall₂_getElem? hh.flip hk
    obtain ⟨v', -, hv'⟩ := step v w' hvw
    have := hv'.length packed.table.packs
    omega
  rw [vert_flatten _ hv i (by simp [verts]; omega)]
  simp [verts]

/-- An edit of every vertex of a tiled mesh with bounds. -/
theorem oldEdit_tiled [FArith F] [LawfulLt F] {vs o : Nat} {m : OldMesh F} (packed : Packed vs m)
    (tiled : OldTiled m) (pos : Float3At m.vertformat m.vattrs 0 o) (bounds : HasBounds m)
    (small : m.vertices.length ≤ 2 ^ 53) {edit : VObj F → Except Err (VObj F)}
    {E : List F → List F}
    (step : ∀ v w, Holds v m.vattrs w → ∃ v', edit v = .ok v' ∧ Holds v' m.vattrs (E w)) :
    ∃ l gs, oldEdit edit m = ({ m with vertices := l, vertsList := false, geoms := gs }, none) ∧
      l.length = m.vertices.length ∧
      (∀ i : Nat, (i : Int) < m.vertnum → vert vs l i = E (vert vs m.vertices i)) ∧
      BoundsGrown vs o { m with vertices := l, vertsList := false } gs := by
  obtain ⟨n, hn, hlen⟩ := packed.num
  have hid : m.ids.length = n := by rw [tiled.ids hn, List.length_range]
  obtain ⟨h1, h2⟩ := oldEdit_eq packed tiled.exist (by rw [hid, ← hlen]; exact small) step
  rw [hid] at h1 h2
  have hp' : Packed vs { m with
      vertices := (editedVerts vs E m).flatten, vertsList := false, vertnum := n } :=
    ⟨packed.table, by simp only [h2]; push_cast; rfl⟩
  obtain ⟨gs, h3, h4⟩ := oldUpdateBoundaries_eq hp' pos bounds
    (fun a ha => ⟨(tiled.exist a ha).1, (tiled.exist a ha).2.1⟩)
  refine ⟨(editedVerts vs E m).flatten, gs, by rw [h1, h3, hn], by rw [h2, hlen], ?_, ?_⟩
  · intro i hi
    rw [editedVerts_tiled tiled hn]
    exact (oldEdit_tiled_fst packed tiled hn hlen small step).2.2 i (by omega)
  · rw [← hn] at h4; exact h4

/-! ## Turning the vectors of a vertex -/

/-- `w` with the three floats at `o` replaced by their image under `R`. -/
def turned (o : Nat) (R : Vec3 F → Vec3 F) (w : List F) : List F :=
  match vec3At w o with
  | some p => overwritten w o (R p).toList
  | none => w

theorem vec3At_middle {w pre post : List F} {x y z : F} {o : Nat} (h : w = pre ++ [x, y, z] ++ post)
    (ho : pre.length = o) : vec3At w o = some ⟨x, y, z⟩ := by
  subst h ho
  unfold vec3At
  simp

theorem overwritten_middle {w pre post : List F} {x y z x' y' z' : F} {o : Nat}
    (h : w = pre ++ [x, y, z] ++ post) (ho : pre.length = o) :
    overwritten w o [x', y', z'] = pre ++ [x', y', z'] ++ post := by
  subst h ho
  unfold overwritten
  simp

theorem turned_some {w : List F} {o : Nat} {R : Vec3 F → Vec3 F} {p : Vec3 F}
    (h : vec3At w o = some p) : turned o R w = overwritten w o (R p).toList := by
  unfold turned
  rw [h]

theorem Holds.turned {vs o : Nat} {vf st : Int} {attrs : List VAttr} (hp : PackedTable vs vf st attrs)
    {u : Int} (hu : Float3At vf attrs u o) {v : VObj F} {w : List F} (h : Holds v attrs w) :
    ∃ p, vec3At w o = some p ∧ v u = some p.toList ∧ ∀ R : Vec3 F → Vec3 F,
      Holds (v.set u (R p).toList) attrs (turned o R w) := by
  obtain ⟨k, pre, x, y, z, post, e1, e2, e3, e4, e5⟩ := h.at hp.format hp.packs hp.distinct hu
  have hk : pre.length = o := by omega
  have hv := vec3At_middle e2 hk
  refine ⟨⟨x, y, z⟩, hv, e4, fun R => ?_⟩
  rw [turned_some hv]
  have := e5 (R ⟨x, y, z⟩).x (R ⟨x, y, z⟩).y (R ⟨x, y, z⟩).z
  rw [← overwritten_middle e2 hk] at this
  exact this

theorem turned_length {w : List F} {o : Nat} (R : Vec3 F → Vec3 F) :
    (turned o R w).length = w.length := by
  unfold turned
  split
  · rename_i p hp
    refine overwritten_length ?_
    unfold vec3At at hp
    split at hp
    · rename_i h1 h2 h3
      have := (List.getElem?_eq_some_iff.1 h3).1
      simp [Vec3.toList]
      omega
    · cases hp
  · rfl

theorem turned_frame {w : List F} {o c : Nat} (R : Vec3 F → Vec3 F) (h : c < o ∨ o + 3 ≤ c) :
    (turned o R w)[c]? = w[c]? := by
  unfold turned
  split
  · rename_i p hp
    rw [overwritten_getElem?]
    · rw [if_neg]
      simp [Vec3.toList]
      omega
    · unfold vec3At at hp
      split at hp
      · rename_i h1 h2 h3
        have := (List.getElem?_eq_some_iff.1 h3).1
        simp [Vec3.toList]
        omega
      · cases hp
  · rfl

/-- Turning three vectors. -/
def turned3 (oP oN oT : Nat) (R : Vec3 F → Vec3 F) (w : List F) : List F :=
  turned oT R (turned oN R (turned oP R w))

theorem toList_inj {p q : Vec3 F} (h : p.toList = q.toList) : p = q := by
  cases p; cases q
  simpa [Vec3.toList] using h

theorem Holds.turned3 {vs oP oN oT : Nat} {vf st : Int} {attrs : List VAttr}
    (hp : PackedTable vs vf st attrs) (h0 : Float3At vf attrs 0 oP) (h3 : Float3At vf attrs 3 oN)
    (h6 : Float3At vf attrs 6 oT) {v : VObj F} {w : List F} (h : Holds v attrs w) :
    ∃ p n t, v 0 = some (Vec3.toList p) ∧ v 3 = some (Vec3.toList n) ∧ v 6 = some (Vec3.toList t) ∧
      ∀ R : Vec3 F → Vec3 F,
        Holds (((v.set 0 (R p).toList).set 3 (R n).toList).set 6 (R t).toList) attrs
          (turned3 oP oN oT R w) ∧
        ∀ o ∈ [oP, oN, oT], vec3At (turned3 oP oN oT R w) o = (vec3At w o).map R := by
  obtain ⟨p, a1, a2, a3⟩ := h.turned hp h0
  obtain ⟨n, b1, b2, -⟩ := h.turned hp h3
  obtain ⟨t, c1, c2, -⟩ := h.turned hp h6
  refine ⟨p, n, t, a2, b2, c2, fun R => ?_⟩
  obtain ⟨n', d1, d2, d3⟩ := (a3 R).turned hp h3
  have en : n' = n := toList_inj (by
    have : (v.set 0 (R p).toList) 3 = v 3 := rfl
    rw [this, b2] at d2
    exact (Option.some.inj d2).symm)
  subst en
  obtain ⟨t', f1, f2, f3⟩ := (d3 R).turned hp h6
  have et : t' = t := toList_inj (by
    have : ((v.set 0 (R p).toList).set 3 (R n').toList) 6 = v 6 := rfl
    rw [this, c2] at f2
    exact (Option.some.inj f2).symm)
  subst et
  have H := f3 R
  refine ⟨H, ?_⟩
  obtain ⟨p', g1, g2, -⟩ := H.turned hp h0
  obtain ⟨n'', i1, i2, -⟩ := H.turned hp h3
  obtain ⟨t'', j1, j2, -⟩ := H.turned hp h6
  simp only [List.mem_cons, List.not_mem_nil, or_false]
  rintro o (rfl | rfl | rfl)
  · rw [a1, Option.map_some]
    exact g1.trans (congrArg some (toList_inj (Option.some.inj g2).symm))
  · rw [b1, Option.map_some]
    exact i1.trans (congrArg some (toList_inj (Option.some.inj i2).symm))
  · rw [c1, Option.map_some]
    exact j1.trans (congrArg some (toList_inj (Option.some.inj j2).symm))

section
variable [FArith F] [Libm F]

theorem rotate_step {vs oP oN oT : Nat} {vf st : Int} {attrs : List VAttr}
    (hp : PackedTable vs vf st attrs) (h0 : Float3At vf attrs 0 oP) (h3 : Float3At vf attrs 3 oN)
    (h6 : Float3At vf attrs 6 oT) {r : Angles F} {cy sy cp sp cr sr : F}
    (ht : Trig r cy sy cp sp cr sr) (v : VObj F) (w : List F) (h : Holds v attrs w) :
    ∃ v', oldRotateVertex r v = .ok v' ∧
      Holds v' attrs (turned3 oP oN oT (rotMap cy sy cp sp cr sr) w) := by
  obtain ⟨p, n, t, e1, e2, e3, e4⟩ := h.turned3 hp h0 h3 h6
  refine ⟨_, ?_, (e4 _).1⟩
  unfold oldRotateVertex
  rw [e1, e2, e3]
  simp only [Vec3.toList, rotData_eq ht]

omit [FArith F] [Libm F] in
theorem vec3At_vert {vs o : Nat} (h : o + 3 ≤ vs) (l : List F) (i : Nat) :
    vec3At (vert vs l i) o = vec3At l (i * vs + o) := by
  unfold vec3At vert
  simp only [List.getElem?_take_of_lt (show o < vs by omega),
    List.getElem?_take_of_lt (show o + 1 < vs by omega),
    List.getElem?_take_of_lt (show o + 2 < vs by omega), List.getElem?_drop]
  rfl

omit [FArith F] [Libm F] in
theorem getElem?_vert {vs c : Nat} (h : c < vs) (l : List F) (i : Nat) :
    (vert vs l i)[c]? = l[i * vs + c]? := by
  unfold vert
  rw [List.getElem?_take_of_lt h, List.getElem?_drop]

theorem oldRotate_tiled [LawfulLt F] {vs oP oN oT : Nat} {m : OldMesh F} (packed : Packed vs m)
    (tiled : OldTiled m) (h0 : Float3At m.vertformat m.vattrs 0 oP)
    (h3 : Float3At m.vertformat m.vattrs 3 oN) (h6 : Float3At m.vertformat m.vattrs 6 oT)
    (bounds : HasBounds m) (small : m.vertices.length ≤ 2 ^ 53) {y p r cy sy cp sp cr sr : F}
    (ht : Trig ⟨Libm.radians y, Libm.radians p, Libm.radians r⟩ cy sy cp sp cr sr) (rest : List F) :
    ∃ l gs, oldRotate m (y :: p :: r :: rest) =
        ({ m with vertices := l, vertsList := false, geoms := gs }, none) ∧
      l.length = m.vertices.length ∧
      (∀ i : Nat, (i : Int) < m.vertnum → ∀ o ∈ [oP, oN, oT],
        vec3At l (i * vs + o) = (vec3At m.vertices (i * vs + o)).map (rotMap cy sy cp sp cr sr)) ∧
      (∀ i c, c < vs → (∀ o ∈ [oP, oN, oT], c < o ∨ o + 3 ≤ c) →
        l[i * vs + c]? = m.vertices[i * vs + c]?) ∧
      BoundsGrown vs oP { m with vertices := l, vertsList := false } gs := by
  obtain ⟨n, hn, hlen⟩ := packed.num
  obtain ⟨l, gs, e1, e2, e3, e4⟩ := oldEdit_tiled packed tiled h0 bounds small
    (rotate_step packed.table h0 h3 h6 ht)
  refine ⟨l, gs, e1, e2, ?_, ?_, e4⟩
  · intro i hi o ho
    have fits : o + 3 ≤ vs := by
      simp only [List.mem_cons, List.not_mem_nil, or_false] at ho
      rcases ho with rfl | rfl | rfl
      · exact packed.table.packs.fits packed.table.format h0
      · exact packed.table.packs.fits packed.table.format h3
      · exact packed.table.packs.fits packed.table.format h6
    obtain ⟨v, -, hv⟩ := getVertex_holds packed.table i (by
      rw [hlen]; exact Nat.mul_le_mul_right _ (by omega))
    obtain ⟨_, _, _, -, -, -, h⟩ := hv.turned3 packed.table h0 h3 h6
    rw [← vec3At_vert fits, ← vec3At_vert fits, e3 i hi]
    exact (h _).2 o ho
  · intro i c hc hout
    by_cases hi : (i : Int) < m.vertnum
    · rw [← getElem?_vert hc, ← getElem?_vert hc, e3 i hi]
      unfold turned3
      rw [turned_frame _ (hout oT (by simp)), turned_frame _ (hout oN (by simp)),
        turned_frame _ (hout oP (by simp))]
    · have : n * vs ≤ i * vs := Nat.mul_le_mul_right _ (by omega)
      rw [List.getElem?_eq_none (by omega), List.getElem?_eq_none (by omega)]

omit [Libm F] in
theorem oldEdit_first {vs : Nat} {m : OldMesh F} (packed : Packed vs m) (exist : VertsExist m)
    (some_vertex : ∃ a ∈ m.mats, 0 < a.vnum) {edit : VObj F → Except Err (VObj F)} {e : Err}
    (raises : ∀ v w, Holds v m.vattrs w → (∀ u, u ∉ usedUsages m.vattrs → v u = none) →
      edit v = .error e) : oldEdit edit m = (m, some e) := by
  obtain ⟨n, hn, hlen⟩ := packed.num
  have hp := packed.table
  obtain ⟨vo, hvo, hh⟩ : ∃ vo, getVertices m = .ok vo ∧ List.Forall₂ (fun v w =>
      Holds v m.vattrs w ∧ ∀ u, u ∉ usedUsages m.vattrs → v u = none) vo (verts vs n m.vertices) := by
    unfold getVertices verts
    rw [hn, Int.toNat_natCast]
    apply mapE_forall₂
    intro i hi
    obtain ⟨v, hv, -, hh, hu⟩ := foldE_read i hp.format hp.small hp.known hp.packs hp.distinct
      (by rw [hlen]; exact Nat.mul_le_mul_right _ (List.mem_range.1 hi)) (fun _ => none)
    refine ⟨v, ?_, by simpa using hh, hu⟩
    unfold getVertex
    rw [if_neg hp.format, intTrueDiv_exact hp.format hp.stride (by
      rw [abs_of_nonneg (by positivity)]
      have : (vs : ℤ) ≤ 65535 := by exact_mod_cast hp.small
      exact le_trans this (by norm_num))]
    exact hv
  have hvl : vo.length = n := by rw [hh.length_eq, verts_length]
  have hids := mats_flatMap_ids hn exist
  unfold oldEdit
  rw [hvo]
  simp only [hvl, hids]
  obtain ⟨a, ha, hpos⟩ := some_vertex
  have hne : m.ids ≠ [] := by
    intro h
    have : a.vstart.toNat ∈ m.ids := List.mem_flatMap.2 ⟨a, ha, by
      unfold Mat.ids
      rw [List.mem_range'_1]
      omega⟩
    rw [h] at this
    simp at this
  obtain ⟨i, is, hi⟩ := List.exists_cons_of_ne_nil hne
  have hilt := ids_lt hn exist i (by rw [hi]; simp)
  have hg : vo[i]? = some (vo[i]'(by omega)) := List.getElem?_eq_getElem (by omega)
  obtain ⟨w, -, hw1, hw2⟩ := forall₂_getElem? hh hg
  rw [hi, foldE]
  unfold pickVertex
  rw [hg]
  simp only [raises _ w hw1 hw2]

theorem rotData_undefined {y p r : F} (h : ∃ a ∈ [y, p, r], Libm.cos (Libm.radians a) = none ∨
    Libm.sin (Libm.radians a) = none) (v : Vec3 F) :
    rotData ⟨Libm.radians y, Libm.radians p, Libm.radians r⟩ v.toList = .error .valueError := by
  have key : ∀ x : F, (Libm.cos x = none ∨ Libm.sin x = none) → trig x = .error .valueError := by
    rintro x (h | h)
    · unfold trig; rw [h]
    · unfold trig; rw [h]; cases Libm.cos x <;> rfl
  have two : ∀ x : F, (∃ q, trig x = .ok q) ∨ trig x = .error .valueError := by
    intro x
    unfold trig
    split
    · exact .inl ⟨_, rfl⟩
    · exact .inr rfl
  unfold rotData
  simp only [Vec3.toList, toVec3]
  simp only [List.mem_cons, List.not_mem_nil, or_false] at h
  obtain ⟨a, ha, h⟩ := h
  have hk := key _ h
  rcases two (Libm.radians r) with ⟨⟨_, _⟩, h1⟩ | h1
  · rcases two (Libm.radians p) with ⟨⟨_, _⟩, h2⟩ | h2
    · rcases two (Libm.radians y) with ⟨⟨_, _⟩, h3⟩ | h3
      · rcases ha with rfl | rfl | rfl <;> simp_all
      · simp only [h1, h2, h3]
    · simp only [h1, h2]
  · simp only [h1]

/-! ## Comparison with the package -/

omit [FArith F] [Libm F] in
theorem Packs.ge {vf : Int} (hvf : vf ≠ 0) {vs o q : Nat} {attrs : List VAttr}
    (h : Packs vf vs o attrs) {b : VAttr} (hb : b ∈ attrs) (hf : b.flag ≠ 255)
    (hq : b.offset = vf * q) : o ≤ q := by
  induction h with
  | done => simp at hb
  | unused hf' _ ih =>
    rcases List.mem_cons.1 hb with rfl | hb
    · exact absurd hf' hf
    · exact ih hb
  | @used o n a as hf' hn hoff hp ih =>
    rcases List.mem_cons.1 hb with rfl | hb
    · rw [hoff] at hq
      have := Int.eq_of_mul_eq_mul_left hvf hq
      omega
    · have := ih hb
      omega

omit [FArith F] [Libm F] in
theorem Packs.apart {vf : Int} (hvf : vf ≠ 0) {vs o : Nat} {attrs : List VAttr}
    (h : Packs vf vs o attrs) (h3 : ∀ a ∈ attrs, VectorAttr a → a.vartype = 2) :
    attrs.Pairwise (Apart vf) := by
  induction h with
  | done => exact .nil
  | unused hf _ ih =>
    refine List.pairwise_cons.2 ⟨fun b _ ha => absurd hf ha.1, ih fun a ha => h3 a (by simp [ha])⟩
  | @used o n a as hf hn hoff hp ih =>
    refine List.pairwise_cons.2 ⟨?_, ih fun a ha => h3 a (by simp [ha])⟩
    intro b hb ha hbv p q hsp hsq
    rw [h3 a (by simp) ha] at hn
    have h3 : oldFloats 2 = some 3 := rfl
    rw [h3] at hn
    injection hn with hn
    have h1 := hsp.2.1
    rw [hoff] at h1
    have := Int.eq_of_mul_eq_mul_left hvf h1
    have := hp.ge hvf hb hbv.1 hsq.2.1
    omega

omit [FArith F] [Libm F] in
theorem Float3At.unique {vs o : Nat} {vf st : Int} {attrs : List VAttr}
    (hp : PackedTable vs vf st attrs) {u : Int} (h : Float3At vf attrs u o) {a : VAttr} (ha : a ∈ attrs)
    (hf : a.flag ≠ 255) (hu : a.usage = u) : a.vartype = 2 ∧ a.offset = vf * o := by
  obtain ⟨b, hb, hb1, hb2, hb3, hb4⟩ := h
  have : a = b := List.inj_on_of_nodup_map hp.distinct
    (List.mem_filter.2 ⟨ha, by simpa using hf⟩) (List.mem_filter.2 ⟨hb, by simpa using hb1⟩)
    (hu.trans hb2.symm)
  subst this
  exact ⟨hb3, hb4⟩

omit [FArith F] [Libm F] in
theorem vec3At_comp {l l' : List F} {p : Nat} {x : Vec3 F} (h : vec3At l p = some x)
    (h' : vec3At l' p = some x) {j : Nat} (hj : j < 3) : l[p + j]? = l'[p + j]? := by
  have key : ∀ l : List F, vec3At l p = some x →
      l[p]? = some x.x ∧ l[p + 1]? = some x.y ∧ l[p + 2]? = some x.z := by
    intro l h
    unfold vec3At at h
    split at h
    · rename_i h1 h2 h3
      cases h
      exact ⟨h1, h2, h3⟩
    · cases h
  obtain ⟨a1, a2, a3⟩ := key l h
  obtain ⟨b1, b2, b3⟩ := key l' h'
  rcases j with _ | _ | _ | j
  · simpa using a1.trans b1.symm
  · exact a2.trans b2.symm
  · exact a3.trans b3.symm
  · omega

theorem oldRotate_package {vs oP oN oT : Nat} {m : Mesh F} (packed : Packed vs m.old)
    (tiled : TiledVerts vs m) (plain : ∀ a ∈ m.vattrs, a.signed = a)
    (h0 : Float3At m.vertformat m.vattrs 0 oP) (h3 : Float3At m.vertformat m.vattrs 3 oN)
    (h6 : Float3At m.vertformat m.vattrs 6 oT) (small : m.vertices.length ≤ 2 ^ 53)
    {y p r cy sy cp sp cr sr : F}
    (ht : Trig ⟨Libm.radians y, Libm.radians p, Libm.radians r⟩ cy sy cp sp cr sr) (rest : List F) :
    (oldRotate m.old (y :: p :: r :: rest)).1.vertices = (rotate m (y :: p :: r :: rest)).1.vertices ∧
      (rotate m (y :: p :: r :: rest)).2 = none := by
  have hattrs : m.old.vattrs = m.vattrs := by
    show m.vattrs.map VAttr.signed = m.vattrs
    rw [List.map_congr_left plain, List.map_id']
  obtain ⟨n, hn, hlen⟩ := packed.num
  have htab : PackedTable vs m.vertformat m.vertstride m.vattrs := by
    have := packed.table
    rw [hattrs] at this
    exact this
  have hvec : ∀ a ∈ m.vattrs, VectorAttr a → a.vartype = 2 ∧ ∃ o ∈ [oP, oN, oT],
      StartsAt m.vertformat a o ∧ o + 3 ≤ vs := by
    have hs := htab.small
    rintro a ha ⟨hf, hu | hu | hu⟩
    · obtain ⟨e1, e2⟩ := h0.unique htab ha hf hu
      have := htab.packs.fits htab.format h0
      exact ⟨e1, oP, by simp, ⟨htab.format, e2, by omega⟩, this⟩
    · obtain ⟨e1, e2⟩ := h3.unique htab ha hf hu
      have := htab.packs.fits htab.format h3
      exact ⟨e1, oN, by simp, ⟨htab.format, e2, by omega⟩, this⟩
    · obtain ⟨e1, e2⟩ := h6.unique htab ha hf hu
      have := htab.packs.fits htab.format h6
      exact ⟨e1, oT, by simp, ⟨htab.format, e2, by omega⟩, this⟩
  have hback : ∀ o ∈ [oP, oN, oT], ∃ a ∈ m.vattrs, VectorAttr a ∧ StartsAt m.vertformat a o ∧
      o + 3 ≤ vs := by
    have hs := htab.small
    intro o ho
    simp only [List.mem_cons, List.not_mem_nil, or_false] at ho
    rcases ho with rfl | rfl | rfl
    · have := htab.packs.fits htab.format h0
      obtain ⟨a, ha, e1, e2, e3, e4⟩ := h0
      exact ⟨a, ha, ⟨e1, .inl e2⟩, ⟨htab.format, e4, by omega⟩, this⟩
    · have := htab.packs.fits htab.format h3
      obtain ⟨a, ha, e1, e2, e3, e4⟩ := h3
      exact ⟨a, ha, ⟨e1, .inr (.inl e2)⟩, ⟨htab.format, e4, by omega⟩, this⟩
    · have := htab.packs.fits htab.format h6
      obtain ⟨a, ha, e1, e2, e3, e4⟩ := h6
      exact ⟨a, ha, ⟨e1, .inr (.inr e2)⟩, ⟨htab.format, e4, by omega⟩, this⟩
  obtain ⟨l, g1, g2, g3, g4⟩ := rotate_tiled (rest := rest) tiled
    (fun a ha hv => ⟨(hvec a ha hv).1, (hvec a ha hv).2.imp fun o h => h.2⟩) ht
  have g4 := g4 (htab.packs.apart htab.format fun a ha hv => (hvec a ha hv).1)
  have hold : ∀ u o, Float3At m.vertformat m.vattrs u o →
      Float3At m.old.vertformat m.old.vattrs u o := by
    intro u o h
    rw [hattrs]
    exact h
  have hst := rotate_step packed.table (hold _ _ h0) (hold _ _ h3) (hold _ _ h6) ht
  obtain ⟨e1, e2, e3⟩ := oldEdit_tiled_fst packed (old_tiled tiled packed) hn hlen small hst
  rw [g1]
  refine ⟨?_, rfl⟩
  have e1' : (oldRotate m.old (y :: p :: r :: rest)).1.vertices = _ := e1
  rw [e1']
  have hlen' : m.vertices.length = n * vs := hlen
  apply List.ext_getElem?
  intro k
  by_cases hk : k < n * vs
  · have hpos := htab.pos
    have hi : k / vs < n := (Nat.div_lt_iff_lt_mul hpos).2 hk
    have hc : k % vs < vs := Nat.mod_lt _ hpos
    have hkk : k = k / vs * vs + k % vs := by rw [Nat.mul_comm, Nat.div_add_mod]
    generalize k / vs = i at *
    generalize k % vs = c at *
    subst hkk
    show _ = l[i * vs + c]?
    by_cases hout : ∀ o ∈ [oP, oN, oT], c < o ∨ o + 3 ≤ c
    · rw [g3 i c hc (fun a ha hv o ho => by
        obtain ⟨-, o', ho', hs', -⟩ := hvec a ha hv
        rw [startsAt_unique ho hs']
        exact hout o' ho')]
      rw [← getElem?_vert hc, ← getElem?_vert hc m.vertices, e3 i hi]
      unfold turned3
      rw [turned_frame _ (hout oT (by simp)), turned_frame _ (hout oN (by simp)),
        turned_frame _ (hout oP (by simp))]
      rfl
    · push Not at hout
      obtain ⟨o, ho, hco, hco'⟩ := hout
      obtain ⟨a, ha, hv, hs, hfit⟩ := hback o ho
      obtain ⟨v, -, hv'⟩ := getVertex_holds packed.table i (by
        rw [hlen]; exact Nat.mul_le_mul_right _ (by omega))
      obtain ⟨_, _, _, -, -, -, h⟩ := hv'.turned3 packed.table (hold _ _ h0) (hold _ _ h3) (hold _ _ h6)
      have hx : ∃ x, vec3At (vert vs m.old.vertices i) o = some x := by
        simp only [List.mem_cons, List.not_mem_nil, or_false] at ho
        rcases ho with rfl | rfl | rfl
        · exact (hv'.turned packed.table (hold _ _ h0)).imp fun _ h => h.1
        · exact (hv'.turned packed.table (hold _ _ h3)).imp fun _ h => h.1
        · exact (hv'.turned packed.table (hold _ _ h6)).imp fun _ h => h.1
      obtain ⟨x, hx⟩ := hx
      have k1 := (h (rotMap cy sy cp sp cr sr)).2 o ho
      rw [← e3 i hi, hx, vec3At_vert hfit] at k1
      have k2 := g4 a ha hv o hs i
      rw [vec3At_vert hfit] at hx
      have hx' : vec3At m.vertices (i * vs + o) = some x := hx
      rw [hx'] at k2
      have := vec3At_comp k1 k2 (j := c - o) (by omega)
      have e : i * vs + o + (c - o) = i * vs + c := by omega
      rwa [e] at this
  · rw [List.getElem?_eq_none (by omega), List.getElem?_eq_none (by
      show l.length ≤ k
      omega)]

end

end Bf2
