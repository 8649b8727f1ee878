import Verif.OldJoin
import Verif.OldJoinSpec
import Verif.OldOrderLemmas
import Verif.Props.OldEdit
import Verif.Props.OldRotate
import Verif.Props.OldMerge
import Verif.ColProgramsLemmas

/-!
# Lemmas: two pieces of a road joined
-/

namespace Bf2

section
variable {F : Type}

/-! ## Vertices of materials -/

theorem vert_vdata {vs : Nat} (m : OldMesh F) {a : Mat F} (h0 : 0 ≤ a.vstart) {j : Nat}
    (hj : (j : Int) < a.vnum) :
    vert vs (m.vdata vs a) j = vert vs m.vertices (a.vstart.toNat + j) := by
  obtain ⟨s, hs⟩ := Int.eq_ofNat_of_zero_le h0
  obtain ⟨n, hn⟩ := Int.eq_ofNat_of_zero_le (show 0 ≤ a.vnum by omega)
  unfold vert OldMesh.vdata block
  rw [hs, hn]
  have e1 : ((s : Int) * vs).toNat = s * vs := by rw [← Int.natCast_mul]; rfl
  have e2 : ((n : Int) * vs).toNat = n * vs := by rw [← Int.natCast_mul]; rfl
  have h1 : (j + 1) * vs ≤ n * vs := Nat.mul_le_mul_right _ (by omega)
  rw [e1, e2, List.drop_take, List.take_take, List.drop_drop, Nat.min_eq_left (by
    rw [Nat.add_mul] at h1; omega), Int.toNat_natCast, Nat.add_mul]

theorem vert_append_left {vs n j : Nat} {A B : List F} (h : A.length = n * vs) (hj : j < n) :
    vert vs (A ++ B) j = vert vs A j := by
  have h1 : (j + 1) * vs ≤ n * vs := Nat.mul_le_mul_right _ (by omega)
  rw [Nat.add_mul] at h1
  unfold vert
  rw [List.drop_append_of_le_length (by omega), List.take_append_of_le_length (by
    rw [List.length_drop]; omega)]

theorem vert_append_right {vs n j : Nat} {A B : List F} (h : A.length = n * vs) :
    vert vs (A ++ B) (n + j) = vert vs B j := by
  unfold vert
  rw [Nat.add_mul, ← h, List.drop_append, List.drop_eq_nil_of_le (by omega), List.nil_append,
    Nat.add_sub_cancel_left]

theorem vec3At_movedVert [FArith F] (o : Nat) (d : Vec3 F) (w : List F) :
    vec3At (movedVert o d w) o = (vec3At w o).map (shifted d) := by
  unfold vec3At movedVert
  simp only [List.getElem?_mapIdx]
  rcases w[o]? with _ | x <;> rcases w[o + 1]? with _ | y <;> rcases w[o + 2]? with _ | z <;>
    simp [shifted]

/-- The vertices of a merged material. -/
theorem OldMatMerged.vert {vs : Nat} {m o m' : OldMesh F} {a b a' : Mat F}
    (h : OldMatMerged vs m o m' a b a') (hm : Packed vs m)
    (ha : 0 ≤ a.vstart ∧ 0 ≤ a.vnum ∧ a.vstart + a.vnum ≤ m.vertnum)
    (hb : 0 ≤ b.vstart ∧ 0 ≤ b.vnum ∧ b.vstart + b.vnum ≤ o.vertnum) (h0 : 0 ≤ a'.vstart) :
    (∀ j : Nat, (j : Int) < a.vnum → Bf2.vert vs m'.vertices (a'.vstart.toNat + j) =
      Bf2.vert vs m.vertices (a.vstart.toNat + j)) ∧
    ∀ j : Nat, (j : Int) < b.vnum → Bf2.vert vs m'.vertices (a'.vstart.toNat + (a.vnum.toNat + j)) =
      Bf2.vert vs o.vertices (b.vstart.toNat + j) := by
  have hl := hm.vdata_length ha
  have hn : a'.vnum = a.vnum + b.vnum := by rw [h.fields]
  constructor
  · intro j hj
    rw [← vert_vdata m' h0 (by omega), h.verts, vert_append_left hl (by omega),
      vert_vdata m ha.1 hj]
  · intro j hj
    rw [← vert_vdata m' h0 (by omega), h.verts, vert_append_right hl, vert_vdata o hb.1 hj]

/-! ## One call -/

/-- A mesh after one call of `rotate` or `translate`. -/
structure Regrown [FArith F] (vs o : Nat) (m m' : OldMesh F) : Prop where
  order : OldOrderly vs m'
  format : OldSameFormat m m'
  vertnum : m'.vertnum = m.vertnum
  length : m'.vertices.length = m.vertices.length
  index : m'.index = m.index
  grown : List.Forall₂ (fun g g' : OldGeom F => g'.lodnum = g.lodnum ∧
    List.Forall₂ (LodGrown vs o m') g.lods g'.lods) m.geoms m'.geoms
  mats : List.Forall₂ (fun a a' : Mat F => a' = { a with mmin := a'.mmin, mmax := a'.mmax })
    m.mats m'.mats

theorem regrown [FArith F] {vs o : Nat} {m : OldMesh F} (order : OldOrderly vs m) {l : List F}
    {gs : List (OldGeom F)} (hl : l.length = m.vertices.length)
    (hg : BoundsGrown vs o { m with vertices := l, vertsList := false } gs) :
    Regrown vs o m { m with vertices := l, vertsList := false, geoms := gs } where
  order := order.grown hl hg
  format := ⟨rfl, rfl, rfl, rfl, rfl, rfl, rfl, rfl⟩
  vertnum := rfl
  length := hl
  index := rfl
  grown := List.Forall₂.imp (fun _ _ h => ⟨h.1, h.2.imp fun _ _ h => ⟨h.lod, h.mats, h.rest⟩⟩) hg
  mats := hg.mats.imp (by rintro a a' ⟨_, _, _, _, -, -, rfl, -⟩; rfl)

theorem OldSameCounts.symm {m o : OldMesh F} (h : OldSameCounts m o) : OldSameCounts o m :=
  h.flip.imp fun _ _ h => h.flip.imp fun _ _ h => h.symm

theorem forall₂_comp {α β γ : Type} {R : α → β → Prop} {S : β → γ → Prop} {as : List α} {bs : List β}
    {cs : List γ} (h : List.Forall₂ R as bs) (h' : List.Forall₂ S bs cs) :
    List.Forall₂ (fun a c => ∃ b, R a b ∧ S b c) as cs := by
  induction h generalizing cs with
  | nil => cases h'; exact .nil
  | cons h _ ih =>
    cases h' with
    | cons h' t' => exact .cons ⟨_, h, h'⟩ (ih t')

theorem OldSameCounts.trans {a b c : OldMesh F} (h : OldSameCounts a b) (h' : OldSameCounts b c) :
    OldSameCounts a c :=
  (forall₂_comp h h').imp fun _ _ ⟨_, h, h'⟩ =>
    (forall₂_comp h h').imp fun _ _ ⟨_, h, h'⟩ => h.trans h'

theorem Regrown.counts [FArith F] {vs o : Nat} {m m1 : OldMesh F} (h1 : Regrown vs o m m1) :
    OldSameCounts m m1 :=
  h1.grown.imp fun _ _ h => h.2.imp fun _ _ h => h.mats.length_eq

/-- `translate` on a mesh in order. -/
theorem translate_regrown [FArith F] [LawfulLt F] {vs o : Nat} {m : OldMesh F} (order : OldOrderly vs m)
    (pos : Float3At m.vertformat m.vattrs 0 o) (d : Vec3 F) :
    ∃ m', oldTranslate m d.toList = (m', none) ∧ Regrown vs o m m' ∧
      ∀ i : Nat, (i : Int) < m.vertnum →
        vert vs m'.vertices i = movedVert o d (vert vs m.vertices i) := by
  obtain ⟨l, gs, e, hl, hv, hg⟩ :=
    C87_translate_tiled order.packed order.tiled pos order.bounds order.small d []
  exact ⟨_, e, regrown order hl hg, hv⟩

/-! ## Positions -/

theorem mem_ids {a : Mat F} {i : Nat} :
    i ∈ a.ids ↔ ∃ j : Nat, (j : Int) < a.vnum ∧ i = a.vstart.toNat + j := by
  unfold Mat.ids
  rw [List.mem_range'_1]
  constructor
  · rintro ⟨h1, h2⟩
    exact ⟨i - a.vstart.toNat, by omega, by omega⟩
  · rintro ⟨j, h1, rfl⟩
    omega

theorem OldMatMerged.pos {vs p : Nat} {m o m' : OldMesh F} {a b a' : Mat F}
    (h : OldMatMerged vs m o m' a b a') (hm : Packed vs m) (fits : p + 3 ≤ vs)
    (ha : 0 ≤ a.vstart ∧ 0 ≤ a.vnum ∧ a.vstart + a.vnum ≤ m.vertnum)
    (hb : 0 ≤ b.vstart ∧ 0 ≤ b.vnum ∧ b.vstart + b.vnum ≤ o.vertnum) (h0 : 0 ≤ a'.vstart)
    (x : Vec3 F) : OldPosOf vs p m' a' x ↔ OldPosOf vs p m a x ∨ OldPosOf vs p o b x := by
  obtain ⟨h1, h2⟩ := h.vert hm ha hb h0
  have hn : a'.vnum = a.vnum + b.vnum := by rw [h.fields]
  unfold OldPosOf
  simp only [mem_ids, ← vec3At_vert fits]
  constructor
  · rintro ⟨_, ⟨j, hj, rfl⟩, hx⟩
    by_cases hja : (j : Int) < a.vnum
    · exact .inl ⟨_, ⟨j, hja, rfl⟩, by rw [← h1 j hja]; exact hx⟩
    · refine .inr ⟨_, ⟨j - a.vnum.toNat, by omega, rfl⟩, ?_⟩
      rw [← h2 _ (by omega), show a.vnum.toNat + (j - a.vnum.toNat) = j by omega]
      exact hx
  · rintro (⟨_, ⟨j, hj, rfl⟩, hx⟩ | ⟨_, ⟨j, hj, rfl⟩, hx⟩)
    · exact ⟨_, ⟨j, by omega, rfl⟩, by rw [h1 j hj]; exact hx⟩
    · exact ⟨_, ⟨a.vnum.toNat + j, by omega, rfl⟩, by rw [h2 j hj]; exact hx⟩

theorem mapped_pos {vs o : Nat} {m m' : OldMesh F} {R : Vec3 F → Vec3 F} (fits : o + 3 ≤ vs)
    (h : ∀ i : Nat, (i : Int) < m.vertnum →
      vec3At (vert vs m'.vertices i) o = (vec3At (vert vs m.vertices i) o).map R)
    {a a' : Mat F} (ha : 0 ≤ a.vstart ∧ 0 ≤ a.vnum ∧ a.vstart + a.vnum ≤ m.vertnum)
    (e : a'.ids = a.ids) (x : Vec3 F) :
    OldPosOf vs o m' a' x ↔ ∃ v, OldPosOf vs o m a v ∧ x = R v := by
  unfold OldPosOf
  rw [e]
  constructor
  · rintro ⟨i, hi, hx⟩
    obtain ⟨j, hj, hij⟩ := mem_ids.1 hi
    rw [← vec3At_vert fits, h i (by omega), vec3At_vert fits, Option.map_eq_some_iff] at hx
    obtain ⟨v, hv, rfl⟩ := hx
    exact ⟨v, ⟨i, hi, hv⟩, rfl⟩
  · rintro ⟨v, ⟨i, hi, hv⟩, rfl⟩
    obtain ⟨j, hj, hij⟩ := mem_ids.1 hi
    refine ⟨i, hi, ?_⟩
    rw [← vec3At_vert fits, h i (by omega), vec3At_vert fits, hv]
    rfl

theorem BoxGrown.congr [FArith F] {mn mx mn' mx' : Vec3 F} {P Q : Vec3 F → Prop}
    (h : BoxGrown mn mx mn' mx' P) (e : ∀ x, P x ↔ Q x) : BoxGrown mn mx mn' mx' Q := by
  have : P = Q := funext fun x => propext (e x)
  rwa [← this]

/-- The materials of the first lod come first. -/
theorem first_mats {m : OldMesh F} {g : OldGeom F} {l : OldLod F} (hg : m.geoms[0]? = some g)
    (hl : g.lods[0]? = some l) {i : Nat} (hi : i < l.materials.length) :
    m.mats[i]? = l.materials[i]? := by
  unfold OldMesh.mats
  rcases hgs : m.geoms with _ | ⟨g', gs⟩
  · rw [hgs] at hg; simp at hg
  rw [hgs] at hg
  simp at hg
  subst hg
  rcases hls : g'.lods with _ | ⟨l', ls⟩
  · rw [hls] at hl; simp at hl
  rw [hls] at hl
  simp at hl
  subst hl
  simp only [List.flatMap_cons, hls]
  rw [List.append_assoc, List.getElem?_append_left hi]

theorem OldSameCounts.mats_length {m o : OldMesh F} (h : OldSameCounts m o) :
    m.mats.length = o.mats.length := by
  have key := congrArg List.sum (forall₂_map_eq (f := fun g : OldGeom F => g.mats.length)
    (g := fun g : OldGeom F => g.mats.length) h.flip (by
      intro g g' e
      unfold OldGeom.mats
      rw [List.length_flatMap, List.length_flatMap]
      exact congrArg List.sum (forall₂_map_eq e.flip fun l l' hl => hl)))
  have e : ∀ x : OldMesh F, x.mats.length = (x.geoms.map fun g => g.mats.length).sum := by
    intro x
    show (x.geoms.flatMap OldGeom.mats).length = _
    rw [List.length_flatMap]
  rw [e, e]
  exact key

theorem turned_verts {R : Vec3 F → Vec3 F} {vs oP oN oT : Nat} {l l' : List F} {i : Nat}
    (fits : ∀ o ∈ [oP, oN, oT], o + 3 ≤ vs)
    (h1 : ∀ o ∈ [oP, oN, oT], vec3At l' (i * vs + o) = (vec3At l (i * vs + o)).map R)
    (h2 : ∀ c, c < vs → (∀ o ∈ [oP, oN, oT], c < o ∨ o + 3 ≤ c) →
      l'[i * vs + c]? = l[i * vs + c]?) :
    TurnedVert R [oP, oN, oT] (vert vs l i) (vert vs l' i) where
  vectors o ho := by rw [vec3At_vert (fits o ho), vec3At_vert (fits o ho), h1 o ho]
  rest c hc := by
    by_cases hv : c < vs
    · rw [getElem?_vert hv, getElem?_vert hv, h2 c hv hc]
    · have : ∀ l : List F, (vert vs l i)[c]? = none := fun l => by
        apply List.getElem?_eq_none
        unfold vert
        rw [List.length_take]
        omega
      rw [this, this]

/-! ## The whole -/

/-- `R` is what `rotate` with these angles does to the vectors of every mesh. -/
def Turner [FArith F] [Libm F] (rotation : List F) (R : Vec3 F → Vec3 F) : Prop :=
  ∀ (vs oP oN oT : Nat) (m : OldMesh F), Packed vs m → OldTiled m →
      Float3At m.vertformat m.vattrs 0 oP → Float3At m.vertformat m.vattrs 3 oN →
      Float3At m.vertformat m.vattrs 6 oT → HasBounds m → m.vertices.length ≤ 2 ^ 53 →
      ∃ l gs, oldRotate m rotation =
          ({ m with vertices := l, vertsList := false, geoms := gs }, none) ∧
        l.length = m.vertices.length ∧
        (∀ i : Nat, (i : Int) < m.vertnum → ∀ o ∈ [oP, oN, oT],
          vec3At l (i * vs + o) = (vec3At m.vertices (i * vs + o)).map R) ∧
        (∀ i c, c < vs → (∀ o ∈ [oP, oN, oT], c < o ∨ o + 3 ≤ c) →
          l[i * vs + c]? = m.vertices[i * vs + c]?) ∧
        BoundsGrown vs oP { m with vertices := l, vertsList := false } gs

theorem joined_of [FArith F] [LawfulLt F] [Libm F] [FDiv F] {rot1 rot2 : List F}
    {R1 R2 : Vec3 F → Vec3 F} (hR1 : Turner rot1 R1) (hR2 : Turner rot2 R2) (pos1 pos2 : Vec3 F)
    {vs oP oN oT : Nat} {m : OldMesh F} {g : OldGeom F} {l : OldLod F} (order : OldOrderly vs m)
    (static : m.kind.isStatic = true) (h0 : Float3At m.vertformat m.vattrs 0 oP)
    (h3 : Float3At m.vertformat m.vattrs 3 oN) (h6 : Float3At m.vertformat m.vattrs 6 oT)
    (small : 2 * m.vertices.length ≤ 2 ^ 53) (hg : m.geoms[0]? = some g) (hl : g.lods[0]? = some l) :
    ∃ m' c mn1 mx1 mn mx,
        joinStatics pos1 pos2 rot1 rot2 m = (m', none) ∧
        OldOrderly vs m' ∧ OldSameFormat m m' ∧ m'.mats.length = m.mats.length ∧
        (∀ (i : Nat) a, m.mats[i]? = some a → ∃ a', m'.mats[i]? = some a' ∧
          a'.vnum = a.vnum + a.vnum ∧ m'.idata a' = m.idata a ++ (m.idata a).map (· + a.vnum) ∧
          (∀ j : Nat, (j : Int) < a.vnum → ∃ w1 w2,
            TurnedVert R1 [oP, oN, oT] (vert vs m.vertices (a.vstart.toNat + j)) w1 ∧
            TurnedVert R2 [oP, oN, oT] (vert vs m.vertices (a.vstart.toNat + j)) w2 ∧
            vert vs m'.vertices (a'.vstart.toNat + j) = movedVert oP c.neg w1 ∧
            vert vs m'.vertices (a'.vstart.toNat + (a.vnum.toNat + j)) =
              movedVert oP c.neg (movedVert oP (pos2.sub pos1) w2))) ∧
        c = boxMiddle mn mx ∧
        BoxGrown l.min l.max mn1 mx1
          (fun x => ∃ a ∈ l.materials, ∃ v, OldPosOf vs oP m a v ∧ x = R1 v) ∧
        BoxGrown mn1 mx1 mn mx
          (fun x => ∃ a ∈ l.materials, ∃ v, OldPosOf vs oP m a v ∧
            (x = R1 v ∨ x = shifted (pos2.sub pos1) (R2 v))) := by
  have fits : ∀ o ∈ [oP, oN, oT], o + 3 ≤ vs := by
    intro o ho
    simp only [List.mem_cons, List.not_mem_nil, or_false] at ho
    rcases ho with rfl | rfl | rfl
    · exact order.packed.table.packs.fits order.packed.table.format h0
    · exact order.packed.table.packs.fits order.packed.table.format h3
    · exact order.packed.table.packs.fits order.packed.table.format h6
  have fitP := fits oP (by simp)
  -- the first piece
  obtain ⟨l1, gs1, e1, len1, v1, c1, b1⟩ :=
    hR1 vs oP oN oT m order.packed order.tiled h0 h3 h6 order.bounds order.small
  have g1 := regrown order len1 b1
  have t1 : ∀ i : Nat, (i : Int) < m.vertnum →
      TurnedVert R1 [oP, oN, oT] (vert vs m.vertices i) (vert vs l1 i) :=
    fun i hi => turned_verts fits (v1 i hi) (c1 i)
  -- the second piece
  obtain ⟨l2, gs2, e2, len2, v2, c2, b2⟩ :=
    hR2 vs oP oN oT m order.packed order.tiled h0 h3 h6 order.bounds order.small
  have g2 := regrown order len2 b2
  have t2 : ∀ i : Nat, (i : Int) < m.vertnum →
      TurnedVert R2 [oP, oN, oT] (vert vs m.vertices i) (vert vs l2 i) :=
    fun i hi => turned_verts fits (v2 i hi) (c2 i)
  set m1 : OldMesh F := { m with vertices := l1, vertsList := false, geoms := gs1 } with hm1
  set m2 : OldMesh F := { m with vertices := l2, vertsList := false, geoms := gs2 } with hm2
  obtain ⟨m3, e3, g3, v3⟩ := translate_regrown g2.order (o := oP) h0 (pos2.sub pos1)
  -- merging
  have ids : ∀ x : OldMesh F, OldOrderly vs x → x.ids.length * vs = x.vertices.length := by
    intro x hx
    obtain ⟨n, hn, hl⟩ := hx.packed.num
    rw [hx.tiled.ids hn, List.length_range, hl]
  have mergeable : OldMergeable vs m1 m3 := ⟨g1.order.packed, g3.order.packed,
    g3.format.vattrs.symm, .inl static,
    (g1.counts.symm.trans g2.counts).trans g3.counts, g1.order.tiled.exist, g3.order.tiled.exist,
    g1.order.tiledIndex.exist, g3.order.tiledIndex.exist⟩
  have hsmall : m1.vertices.length + m3.vertices.length ≤ 2 ^ 53 := by
    rw [g3.length, g1.length, g2.length]; omega
  obtain ⟨q, e4, -, packed4, tiled4, tiledIndex4, lods4, mats4⟩ := C91_merge_concatenates (p := oP)
    mergeable h0 g1.order.bounds (by rw [Nat.add_mul, ids _ g1.order, ids _ g3.order]; exact hsmall)
  obtain ⟨-, order4, format4⟩ := g1.order.merge g3.order mergeable.attrs mergeable.static
    mergeable.counts hsmall
  rw [e4] at order4 format4
  dsimp only at order4 format4
  have h0' : Float3At q.vertformat q.vattrs 0 oP := by
    rw [format4.vertformat, format4.vattrs]; exact h0
  -- the first lod
  obtain ⟨gq1, hgq1, -, hlods1⟩ := forall₂_getElem? g1.grown hg
  obtain ⟨lq1, hlq1, grown1⟩ := forall₂_getElem? hlods1 hl
  obtain ⟨gq, hgq, -, hlods⟩ := forall₂_getElem? lods4 hgq1
  obtain ⟨lq, hlq, grownq⟩ := forall₂_getElem? hlods hlq1
  -- centring
  obtain ⟨m', e5, g5, v5⟩ := translate_regrown order4 h0' (boxMiddle lq.min lq.max).neg
  -- the materials
  have mat : ∀ (i : Nat) a, m.mats[i]? = some a → ∃ a1 a3 aq a', m1.mats[i]? = some a1 ∧
      m3.mats[i]? = some a3 ∧ q.mats[i]? = some aq ∧ m'.mats[i]? = some a' ∧
      a1 = { a with mmin := a1.mmin, mmax := a1.mmax } ∧
      a3 = { a with mmin := a3.mmin, mmax := a3.mmax } ∧ OldMatMerged vs m1 m3 q a1 a3 aq ∧
      a' = { aq with mmin := a'.mmin, mmax := a'.mmax } := by
    intro i a ha
    obtain ⟨a1, ha1, f1⟩ := forall₂_getElem? g1.mats ha
    obtain ⟨a2, ha2, f2⟩ := forall₂_getElem? g2.mats ha
    obtain ⟨a3, ha3, f3⟩ := forall₂_getElem? g3.mats ha2
    obtain ⟨aq, haq, fq, -⟩ := mats4 i a1 a3 ha1 ha3
    obtain ⟨a', ha', f'⟩ := forall₂_getElem? g5.mats haq
    refine ⟨a1, a3, aq, a', ha1, ha3, haq, ha', f1, ?_, fq, f'⟩
    rw [f3, f2]
  have lenq : q.mats.length = m.mats.length := by
    have : OldSameCounts m1 q := lods4.imp fun _ _ h => h.2.imp fun _ _ h => h.mats.symm
    rw [← this.mats_length, g1.mats.length_eq]
  have exist := order.tiled.exist
  have posq : ∀ (i : Nat) a aq, m.mats[i]? = some a → q.mats[i]? = some aq → ∀ x,
      OldPosOf vs oP q aq x ↔ ∃ v, OldPosOf vs oP m a v ∧
        (x = R1 v ∨ x = shifted (pos2.sub pos1) (R2 v)) := by
    intro i a aq ha haq x
    obtain ⟨a1, a3, aq', a', k1, k3, kq, k', f1, f3, fq, f'⟩ := mat i a ha
    rw [haq] at kq
    cases kq
    have hx := exist a (List.mem_of_getElem? ha)
    have i1 : a1.ids = a.ids := by rw [f1]; rfl
    have i3 : a3.ids = a.ids := by rw [f3]; rfl
    rw [fq.pos g1.order.packed fitP (g1.order.tiled.exist a1 (List.mem_of_getElem? k1))
      (g3.order.tiled.exist a3 (List.mem_of_getElem? k3))
      (tiled4.exist aq (List.mem_of_getElem? haq)).1,
      mapped_pos (m := m) fitP (fun i hi => (t1 i hi).vectors oP (by simp)) hx i1,
      mapped_pos (m := m) (R := fun v => shifted (pos2.sub pos1) (R2 v)) fitP (fun i hi => by
        rw [v3 i hi, vec3At_movedVert, (t2 i hi).vectors oP (by simp), Option.map_map]; rfl) hx i3]
    constructor
    · rintro (⟨v, hv, e⟩ | ⟨v, hv, e⟩)
      · exact ⟨v, hv, .inl e⟩
      · exact ⟨v, hv, .inr e⟩
    · rintro ⟨v, hv, e | e⟩
      · exact .inl ⟨v, hv, e⟩
      · exact .inr ⟨v, hv, e⟩
  refine ⟨m', boxMiddle lq.min lq.max, lq1.min, lq1.max, lq.min, lq.max, ?_, g5.order,
    (g1.format.trans format4).trans g5.format, ?_, ?_, rfl, ?_, ?_⟩
  · unfold joinStatics
    rw [e1, e2]
    dsimp only
    rw [e3]
    dsimp only
    rw [e4]
    dsimp only
    rw [hgq]
    dsimp only
    rw [hlq]
    exact e5
  · rw [← g5.mats.length_eq, lenq]
  · intro i a ha
    obtain ⟨a1, a3, aq, a', k1, k3, kq, k', f1, f3, fq, f'⟩ := mat i a ha
    have hx := exist a (List.mem_of_getElem? ha)
    have hq := tiled4.exist aq (List.mem_of_getElem? kq)
    have hx1 := g1.order.tiled.exist a1 (List.mem_of_getElem? k1)
    have hx3 := g3.order.tiled.exist a3 (List.mem_of_getElem? k3)
    obtain ⟨w1, w3⟩ := fq.vert g1.order.packed hx1 hx3 hq.1
    have s1 : a1.vstart = a.vstart ∧ a1.vnum = a.vnum ∧ a1.istart = a.istart ∧ a1.inum = a.inum := by
      rw [f1]; exact ⟨rfl, rfl, rfl, rfl⟩
    have s3 : a3.vstart = a.vstart ∧ a3.vnum = a.vnum ∧ a3.istart = a.istart ∧ a3.inum = a.inum := by
      rw [f3]; exact ⟨rfl, rfl, rfl, rfl⟩
    have s' : a'.vstart = aq.vstart ∧ a'.vnum = aq.vnum ∧ a'.istart = aq.istart ∧
        a'.inum = aq.inum := by
      rw [f']; exact ⟨rfl, rfl, rfl, rfl⟩
    have nq : aq.vnum = a.vnum + a.vnum := by rw [fq.fields, ← s1.2.1]; dsimp only; rw [s3.2.1, s1.2.1]
    refine ⟨a', k', s'.2.1.trans nq, ?_, fun j hj => ⟨vert vs l1 (a.vstart.toNat + j),
      vert vs l2 (a.vstart.toNat + j), t1 _ (by omega), t2 _ (by omega), ?_, ?_⟩⟩
    · have := fq.index
      unfold OldMesh.idata at this ⊢
      rw [g5.index, s'.2.2.1, s'.2.2.2, this, g3.index, s1.2.2.1, s1.2.2.2, s3.2.2.1, s3.2.2.2, s1.2.1]
    · rw [s'.1, v5 _ (by omega), w1 j (by omega), s1.1]
    · rw [s'.1, v5 _ (by omega), ← s1.2.1, w3 j (by omega), s3.1, v3 _ (by rw [g2.vertnum]; omega)]
  · refine grown1.lod.congr fun x => ?_
    constructor
    · rintro ⟨a, ha, hx⟩
      obtain ⟨i, hi⟩ := List.mem_iff_getElem?.1 ha
      have hlt := (List.getElem?_eq_some_iff.1 hi).1
      have hm := first_mats hg hl hlt
      obtain ⟨v, hv, e⟩ := (mapped_pos (m := m) fitP (fun i hi => (t1 i hi).vectors oP (by simp))
        (exist a (List.mem_of_getElem? (hm.trans hi))) rfl x).1 hx
      exact ⟨a, ha, v, hv, e⟩
    · rintro ⟨a, ha, v, hv, e⟩
      obtain ⟨i, hi⟩ := List.mem_iff_getElem?.1 ha
      have hlt := (List.getElem?_eq_some_iff.1 hi).1
      have hm := first_mats hg hl hlt
      exact ⟨a, ha, (mapped_pos (m := m) fitP (fun i hi => (t1 i hi).vectors oP (by simp))
        (exist a (List.mem_of_getElem? (hm.trans hi))) rfl x).2 ⟨v, hv, e⟩⟩
  · refine grownq.lod.congr fun x => ?_
    have hlen : lq.materials.length = l.materials.length := by
      rw [grownq.mats, grown1.mats.length_eq]
    constructor
    · rintro ⟨aq, haq, hx⟩
      obtain ⟨i, hi⟩ := List.mem_iff_getElem?.1 haq
      have hlt := (List.getElem?_eq_some_iff.1 hi).1
      have hlt' : i < l.materials.length := by omega
      have hm := first_mats hg hl hlt'
      rw [List.getElem?_eq_getElem hlt'] at hm
      obtain ⟨v, hv, e⟩ := (posq i _ aq hm ((first_mats hgq hlq hlt).trans hi) x).1 hx
      exact ⟨_, List.getElem_mem hlt', v, hv, e⟩
    · rintro ⟨a, ha, v, hv, e⟩
      obtain ⟨i, hi⟩ := List.mem_iff_getElem?.1 ha
      have hlt := (List.getElem?_eq_some_iff.1 hi).1
      have hlt' : i < lq.materials.length := by omega
      have hm := first_mats hgq hlq hlt'
      rw [List.getElem?_eq_getElem hlt'] at hm
      exact ⟨_, List.getElem_mem hlt', (posq i a _ ((first_mats hg hl hlt).trans hi) hm x).2 ⟨v, hv, e⟩⟩

/-- Positions in a material of the result. -/
theorem joined_pos [FArith F] {vs oP oN oT : Nat} {m m' : OldMesh F} {a a' : Mat F} {c d : Vec3 F}
    {R1 R2 : Vec3 F → Vec3 F} (fits : oP + 3 ≤ vs) (num : a'.vnum = a.vnum + a.vnum)
    (h : ∀ j : Nat, (j : Int) < a.vnum → ∃ w1 w2,
      TurnedVert R1 [oP, oN, oT] (vert vs m.vertices (a.vstart.toNat + j)) w1 ∧
      TurnedVert R2 [oP, oN, oT] (vert vs m.vertices (a.vstart.toNat + j)) w2 ∧
      vert vs m'.vertices (a'.vstart.toNat + j) = movedVert oP c w1 ∧
      vert vs m'.vertices (a'.vstart.toNat + (a.vnum.toNat + j)) = movedVert oP c (movedVert oP d w2))
    (x : Vec3 F) :
    OldPosOf vs oP m' a' x ↔ ∃ v, OldPosOf vs oP m a v ∧
      (x = shifted c (R1 v) ∨ x = shifted c (shifted d (R2 v))) := by
  unfold OldPosOf
  simp only [mem_ids, ← vec3At_vert fits]
  constructor
  · rintro ⟨_, ⟨j, hj, rfl⟩, hx⟩
    by_cases hja : (j : Int) < a.vnum
    · obtain ⟨w1, w2, t1, -, h1, -⟩ := h j hja
      rw [h1, vec3At_movedVert, t1.vectors oP (by simp), Option.map_map, Option.map_eq_some_iff] at hx
      obtain ⟨v, hv, rfl⟩ := hx
      exact ⟨v, ⟨_, ⟨j, hja, rfl⟩, hv⟩, .inl rfl⟩
    · obtain ⟨w1, w2, -, t2, -, h2⟩ := h (j - a.vnum.toNat) (by omega)
      rw [show a.vnum.toNat + (j - a.vnum.toNat) = j by omega] at h2
      rw [h2, vec3At_movedVert, vec3At_movedVert, t2.vectors oP (by simp), Option.map_map,
        Option.map_map, Option.map_eq_some_iff] at hx
      obtain ⟨v, hv, rfl⟩ := hx
      exact ⟨v, ⟨_, ⟨_, by omega, rfl⟩, hv⟩, .inr rfl⟩
  · rintro ⟨v, ⟨_, ⟨j, hj, rfl⟩, hv⟩, rfl | rfl⟩
    · obtain ⟨w1, w2, t1, -, h1, -⟩ := h j hj
      refine ⟨_, ⟨j, by omega, rfl⟩, ?_⟩
      rw [h1, vec3At_movedVert, t1.vectors oP (by simp), hv]
      rfl
    · obtain ⟨w1, w2, -, t2, -, h2⟩ := h j hj
      refine ⟨_, ⟨a.vnum.toNat + j, by omega, rfl⟩, ?_⟩
      rw [h2, vec3At_movedVert, vec3At_movedVert, t2.vectors oP (by simp), hv]
      rfl

theorem fn_injective {v w : Vec3 F} (h : v.fn = w.fn) : v = w := by
  have h0 := congrFun h 0
  have h1 := congrFun h 1
  have h2 := congrFun h 2
  cases v; cases w
  simp only [Vec3.fn, Matrix.cons_val] at h0 h1 h2
  simp [h0, h1, h2]

end

end Bf2
