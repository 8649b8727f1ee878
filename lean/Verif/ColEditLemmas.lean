import Verif.ColEditSpec
import Mathlib.Algebra.BigOperators.Group.List.Basic
import Mathlib.Data.List.Nodup

/-! # Merging collision meshes -/

namespace Bf2

section
variable {F φ : Type}

theorem ColFace.shift_shift (f : ColFace) (a b : Int) : (f.shift a).shift b = f.shift (a + b) := by
  simp [ColFace.shift, add_assoc]

theorem ColFace.shift_zero (f : ColFace) : f.shift 0 = f := by simp [ColFace.shift]

theorem mergeFaces_list (n : Int) (h : Heap) (s l : List Nat) : (mergeFaces n h s l).2 = s ++ l := by
  induction l generalizing h s with
  | nil => simp [mergeFaces]
  | cons a l ih => rw [mergeFaces, ih]; simp

theorem mergeFaces_heap (n : Int) (h : Heap) (s l : List Nat) (x : Nat) :
    (mergeFaces n h s l).1 x = (h x).shift (n * l.count x) := by
  induction l generalizing h s with
  | nil => simp [mergeFaces, ColFace.shift_zero]
  | cons a l ih =>
    rw [mergeFaces, ih, List.count_cons]
    by_cases e : a = x
    · subst e
      rw [Function.update_self, ColFace.shift_shift]
      simp only [beq_self_eq_true, if_true]
      congr 1
      push_cast
      ring
    · rw [Function.update_of_ne (Ne.symm e)]
      simp [e]

theorem movedBy_append (a b : List (ColLod F Nat)) (x : Nat) :
    movedBy (a ++ b) x = movedBy a x + movedBy b x := by simp [movedBy]

theorem movedBy_cons (a : ColLod F Nat) (b : List (ColLod F Nat)) (x : Nat) :
    movedBy (a :: b) x = a.vertnum * a.faces.count x + movedBy b x := by simp [movedBy]

theorem movedBy_nil (x : Nat) : movedBy ([] : List (ColLod F Nat)) x = 0 := rfl

/-- Consistent counts, by skeleton and lods. -/
theorem colWF_iff (m : ColMesh F φ) : ColWF m ↔
    (m.skeleton.2.2.2.length = m.skeleton.2.2.1.toNat ∧ ∀ g ∈ m.skeleton.2.2.2,
      g.2.length = g.1.toNat ∧ ∀ s ∈ g.2, s.2 = s.1.toNat) ∧
    ∀ l ∈ m.lods, ColLodWF m.version l := by
  simp only [ColMesh.skeleton, List.length_map, List.mem_map, forall_exists_index, and_imp,
    forall_apply_eq_imp_iff₂, ColMesh.lods, List.mem_flatMap]
  constructor
  · rintro ⟨h1, h2⟩
    exact ⟨⟨h1, fun g hg => ⟨(h2 g hg).count, fun s hs => ((h2 g hg).subgeoms s hs).count⟩⟩,
      fun l g hg s hs hl => ((h2 g hg).subgeoms s hs).lods l hl⟩
  · rintro ⟨⟨h1, h2⟩, h3⟩
    exact ⟨h1, fun g hg => ⟨(h2 g hg).1, fun s hs => ⟨(h2 g hg).2 s hs, fun l hl => h3 l g hg s hs hl⟩⟩⟩

/-- The lods of a mesh are those at its positions. -/
theorem mem_lods_iff {φ : Type} {m : ColMesh F φ} {l : ColLod F φ} :
    l ∈ m.lods ↔ ∃ i j k, m.lodAt i j k = some l := by
  simp only [ColMesh.lods, ColMesh.lodAt, List.mem_flatMap, Option.bind_eq_some_iff]
  constructor
  · rintro ⟨g, hg, s, hs, hl⟩
    obtain ⟨i, hi⟩ := List.getElem?_of_mem hg
    obtain ⟨j, hj⟩ := List.getElem?_of_mem hs
    obtain ⟨k, hk⟩ := List.getElem?_of_mem hl
    exact ⟨i, j, k, g, hi, s, hj, hk⟩
  · rintro ⟨i, j, k, g, hi, s, hj, hk⟩
    exact ⟨g, List.mem_of_getElem? hi, s, List.mem_of_getElem? hj, List.mem_of_getElem? hk⟩

theorem movedBy_zero {ls : List (ColLod F Nat)} {x : Nat} (h : x ∉ ls.flatMap (·.faces)) :
    movedBy ls x = 0 := by
  induction ls with
  | nil => rfl
  | cons y ls ih =>
    simp only [List.flatMap_cons, List.mem_append, not_or] at h
    rw [movedBy_cons, ih h.2, List.count_eq_zero_of_not_mem h.1]
    simp

/-- When no face object occurs twice, each is moved by the vertex count of its lod. -/
theorem movedBy_nodup {ls : List (ColLod F Nat)} (hn : (ls.flatMap (·.faces)).Nodup)
    {l : ColLod F Nat} (hl : l ∈ ls) {x : Nat} (hx : x ∈ l.faces) : movedBy ls x = l.vertnum := by
  induction ls with
  | nil => cases hl
  | cons y ls ih =>
    rw [List.flatMap_cons, List.nodup_append] at hn
    rw [movedBy_cons]
    rcases List.mem_cons.1 hl with rfl | hl
    · rw [List.count_eq_one_of_mem hn.1 hx, movedBy_zero fun hc => hn.2.2 x hx x hc rfl]
      simp
    · have hx' : x ∈ ls.flatMap (·.faces) := List.mem_flatMap.2 ⟨l, hl, hx⟩
      rw [ih hn.2.1 hl, List.count_eq_zero_of_not_mem fun hc => hn.2.2 x hc x hx' rfl]
      simp

/-- What one step of a merge does: the result is related to its arguments by `R`, and the heap is
shifted along the lods of the second argument. -/
def MergeStep {α : Type} (f : Heap → α → α → Heap × α × Option Err) (R : α → α → α → Prop)
    (ls : α → List (ColLod F Nat)) : Prop :=
  ∀ h a b h' a', f h a b = (h', a', none) → R a b a' ∧ ∀ x, h' x = (h x).shift (movedBy (ls b) x)

/-- Position by position. -/
def Listwise {α : Type} (R : α → α → α → Prop) (as bs cs : List α) : Prop :=
  bs.length ≤ as.length ∧ cs.length = as.length ∧
  ∀ (i : Nat) a c, as[i]? = some a → cs[i]? = some c →
    (∀ b, bs[i]? = some b → R a b c) ∧ (bs[i]? = none → c = a)

theorem mergeAll_ok {α : Type} {f : Heap → α → α → Heap × α × Option Err} {R : α → α → α → Prop}
    {ls : α → List (ColLod F Nat)} (hf : MergeStep f R ls) {h h' : Heap} {as bs cs : List α}
    (hm : mergeAll f h as bs = (h', cs, none)) :
    Listwise R as bs cs ∧ ∀ x, h' x = (h x).shift (movedBy (bs.flatMap ls) x) := by
  induction bs generalizing h as cs with
  | nil =>
    have : mergeAll f h as [] = (h, as, none) := by cases as <;> rfl
    rw [this] at hm
    cases hm
    refine ⟨⟨by simp, rfl, ?_⟩, fun x => by simp [movedBy_nil, ColFace.shift_zero]⟩
    intro i a c h1 h2
    rw [h1] at h2
    cases h2
    exact ⟨by simp, fun _ => rfl⟩
  | cons b bs ih =>
    match as with
    | [] => cases hm
    | a :: as =>
      unfold mergeAll at hm
      rcases hs : f h a b with ⟨h1, a1, _ | e⟩
      · rw [hs] at hm
        simp only at hm
        rcases hr : mergeAll f h1 as bs with ⟨h2, as2, e⟩
        rw [hr] at hm
        simp only [Prod.mk.injEq] at hm
        obtain ⟨rfl, rfl, rfl⟩ := hm
        obtain ⟨hR, hh⟩ := hf _ _ _ _ _ hs
        obtain ⟨⟨i1, i2, i3⟩, hh2⟩ := ih hr
        refine ⟨⟨by simpa using i1, by simpa using i2, ?_⟩, fun x => ?_⟩
        · intro i
          cases i with
          | zero =>
            intro x c h3 h4
            simp only [List.getElem?_cons_zero, Option.some.injEq] at h3 h4
            subst h3 h4
            refine ⟨fun y hy => ?_, fun hy => by simp at hy⟩
            simp only [List.getElem?_cons_zero, Option.some.injEq] at hy
            subst hy; exact hR
          | succ i =>
            intro x c h3 h4
            simp only [List.getElem?_cons_succ] at h3 h4 ⊢
            exact i3 i x c h3 h4
        · rw [hh2, hh, ColFace.shift_shift, List.flatMap_cons, movedBy_append]
      · rw [hs] at hm
        cases hm

/-- Errors. -/
theorem mergeAll_err {α : Type} {f : Heap → α → α → Heap × α × Option Err} {Q : α → α → Prop}
    (hf : ∀ h a b, ((f h a b).2.2 = none ↔ Q a b) ∧
      ∀ e, (f h a b).2.2 = some e → e = .indexError) (h : Heap) (as bs : List α) :
    ((mergeAll f h as bs).2.2 = none ↔ bs.length ≤ as.length ∧
      ∀ (i : Nat) a b, as[i]? = some a → bs[i]? = some b → Q a b) ∧
    ∀ e, (mergeAll f h as bs).2.2 = some e → e = .indexError := by
  induction bs generalizing h as with
  | nil =>
    have : mergeAll f h as [] = (h, as, none) := by cases as <;> rfl
    simp [this]
  | cons b bs ih =>
    match as with
    | [] => simp [mergeAll]
    | a :: as =>
      unfold mergeAll
      obtain ⟨q1, q2⟩ := hf h a b
      rcases hs : f h a b with ⟨h1, a1, _ | e⟩
      · rw [hs] at q1
        obtain ⟨i1, i2⟩ := ih h1 as
        simp only
        refine ⟨i1.trans ?_, i2⟩
        simp only [List.length_cons, Nat.add_le_add_iff_right]
        refine and_congr_right fun _ => ⟨fun h i => ?_, fun h i x y hx hy => ?_⟩
        · cases i with
          | zero =>
            intro x y hx hy
            simp only [List.getElem?_cons_zero, Option.some.injEq] at hx hy
            subst hx hy
            exact q1.1 rfl
          | succ i =>
            intro x y hx hy
            simp only [List.getElem?_cons_succ] at hx hy
            exact h i x y hx hy
        · exact h (i + 1) x y (by simpa using hx) (by simpa using hy)
      · rw [hs] at q1 q2
        simp only
        refine ⟨⟨fun h => by simp at h, fun h => ?_⟩, fun e' he => q2 e' he⟩
        exact absurd (q1.2 (h.2 0 a b rfl rfl)) (by simp)

end

section
variable {F : Type} [FArith F]

theorem joined_lod (h : Heap) (a b : ColLod F Nat) : Joined a b (colMergeLod h a b).2 := by
  have := mergeFaces_list b.vertnum h a.faces b.faces
  unfold colMergeLod
  rcases hm : mergeFaces b.vertnum h a.faces b.faces with ⟨h', fs⟩
  rw [hm] at this
  constructor <;> first | rfl | exact this

theorem colMergeLod_heap (h : Heap) (a b : ColLod F Nat) (x : Nat) :
    (colMergeLod h a b).1 x = (h x).shift (movedBy [b] x) := by
  have := mergeFaces_heap b.vertnum h a.faces b.faces x
  unfold colMergeLod
  rcases hm : mergeFaces b.vertnum h a.faces b.faces with ⟨h', fs⟩
  rw [hm] at this
  simpa [movedBy] using this

/-- The lod that a merge makes of `a` and `b`, whatever the face objects are. -/
def IsMerged (a b c : ColLod F Nat) : Prop := ∃ h, c = (colMergeLod h a b).2

theorem colMergeSub_step : MergeStep (F := F) colMergeSub
    (fun a b c => c.lodnum = a.lodnum ∧ Listwise IsMerged a.lods b.lods c.lods) ColSub.lods := by
  intro h a b h' c hm
  unfold colMergeSub at hm
  rcases hr : mergeAll (fun h a b => ((colMergeLod h a b).1, (colMergeLod h a b).2, none)) h a.lods
    b.lods with ⟨h1, l, e⟩
  rw [hr] at hm
  simp only [Prod.mk.injEq] at hm
  obtain ⟨rfl, rfl, rfl⟩ := hm
  have := mergeAll_ok (R := IsMerged) (ls := fun l : ColLod F Nat => [l]) (by
    intro h a b h' c hc
    simp only [Prod.mk.injEq] at hc
    obtain ⟨rfl, rfl, -⟩ := hc
    exact ⟨⟨h, rfl⟩, fun x => colMergeLod_heap h a b x⟩) hr
  refine ⟨⟨rfl, this.1⟩, fun x => ?_⟩
  rw [this.2]
  simp

theorem colMergeGeom_step : MergeStep (F := F) colMergeGeom
    (fun a b c => c.subgeomnum = a.subgeomnum ∧ Listwise (fun a b c => c.lodnum = a.lodnum ∧
      Listwise IsMerged a.lods b.lods c.lods) a.subgeoms b.subgeoms c.subgeoms)
    (fun g => g.subgeoms.flatMap ColSub.lods) := by
  intro h a b h' c hm
  unfold colMergeGeom at hm
  rcases hr : mergeAll colMergeSub h a.subgeoms b.subgeoms with ⟨h1, l, e⟩
  rw [hr] at hm
  simp only [Prod.mk.injEq] at hm
  obtain ⟨rfl, rfl, rfl⟩ := hm
  have := mergeAll_ok colMergeSub_step hr
  exact ⟨⟨rfl, this.1⟩, this.2⟩

theorem colMerge_ok {h h' : Heap} {a b c : ColMesh F Nat} (hm : colMerge h a b = (h', c, none)) :
    (c.u1 = a.u1 ∧ c.version = a.version ∧ c.geomnum = a.geomnum) ∧
    Listwise (fun a b c => c.subgeomnum = a.subgeomnum ∧ Listwise (fun a b c => c.lodnum = a.lodnum ∧
      Listwise IsMerged a.lods b.lods c.lods) a.subgeoms b.subgeoms c.subgeoms) a.geoms b.geoms
      c.geoms ∧
    ∀ x, h' x = (h x).shift (movedBy b.lods x) := by
  unfold colMerge at hm
  rcases hr : mergeAll colMergeGeom h a.geoms b.geoms with ⟨h1, l, e⟩
  rw [hr] at hm
  simp only [Prod.mk.injEq] at hm
  obtain ⟨rfl, rfl, rfl⟩ := hm
  have := mergeAll_ok colMergeGeom_step hr
  exact ⟨⟨rfl, rfl, rfl⟩, this.1, this.2⟩

theorem Listwise.map_eq {α β : Type} {R : α → α → α → Prop} {as bs cs : List α} {f : α → β}
    (h : Listwise R as bs cs) (hf : ∀ a b c, R a b c → f c = f a) : cs.map f = as.map f := by
  refine List.ext_getElem? fun i => ?_
  simp only [List.getElem?_map]
  obtain ⟨-, h2, h3⟩ := h
  by_cases hi : i < as.length
  · have e1 : as[i]? = some as[i] := List.getElem?_eq_getElem hi
    have e2 : cs[i]? = some cs[i] := List.getElem?_eq_getElem (by omega)
    obtain ⟨g1, g2⟩ := h3 i _ _ e1 e2
    rw [e1, e2]
    rcases hb : bs[i]? with _ | b
    · rw [g2 hb]
    · simp [hf _ _ _ (g1 b hb)]
  · rw [List.getElem?_eq_none (by omega), List.getElem?_eq_none (by omega)]

/-- One level down, from what is known at a position. -/
theorem Listwise.at {α : Type} {R : α → α → α → Prop} {as bs cs : List α} (h : Listwise R as bs cs)
    (i : Nat) : (as[i]? = none ∧ bs[i]? = none ∧ cs[i]? = none) ∨
      (∃ a, as[i]? = some a ∧ bs[i]? = none ∧ cs[i]? = some a) ∨
      ∃ a b c, as[i]? = some a ∧ bs[i]? = some b ∧ cs[i]? = some c ∧ R a b c := by
  obtain ⟨h1, h2, h3⟩ := h
  by_cases hi : i < as.length
  · have e1 : as[i]? = some as[i] := List.getElem?_eq_getElem hi
    have e2 : cs[i]? = some cs[i] := List.getElem?_eq_getElem (by omega)
    obtain ⟨g1, g2⟩ := h3 i _ _ e1 e2
    rcases hb : bs[i]? with _ | b
    · right; left
      exact ⟨_, e1, rfl, by rw [e2, g2 hb]⟩
    · right; right
      exact ⟨_, _, _, e1, rfl, e2, g1 b hb⟩
  · left
    exact ⟨List.getElem?_eq_none (by omega), List.getElem?_eq_none (by omega),
      List.getElem?_eq_none (by omega)⟩

theorem colMerge_lods {h h' : Heap} {a b c : ColMesh F Nat} (hm : colMerge h a b = (h', c, none))
    (i j k : Nat) :
    (a.lodAt i j k = none ∧ b.lodAt i j k = none ∧ c.lodAt i j k = none) ∨
    (∃ x, a.lodAt i j k = some x ∧ b.lodAt i j k = none ∧ c.lodAt i j k = some x) ∨
    ∃ x y z, a.lodAt i j k = some x ∧ b.lodAt i j k = some y ∧ c.lodAt i j k = some z ∧
      IsMerged x y z := by
  obtain ⟨-, h1, -⟩ := colMerge_ok hm
  unfold ColMesh.lodAt
  rcases h1.at i with ⟨e1, e2, e3⟩ | ⟨g, e1, e2, e3⟩ | ⟨ga, gb, gc, e1, e2, e3, -, h2⟩
  · left; rw [e1, e2, e3]; exact ⟨rfl, rfl, rfl⟩
  · rw [e1, e2, e3]
    simp only [Option.bind_some, Option.bind_none]
    rcases hx : (g.subgeoms[j]?).bind fun s => s.lods[k]? with _ | x
    · left; simp
    · right; left; exact ⟨x, rfl, by simp, rfl⟩
  · rw [e1, e2, e3]
    simp only [Option.bind_some]
    rcases h2.at j with ⟨e1, e2, e3⟩ | ⟨g, e1, e2, e3⟩ | ⟨sa, sb, sc, e1, e2, e3, -, h3⟩
    · left; rw [e1, e2, e3]; exact ⟨rfl, rfl, rfl⟩
    · rw [e1, e2, e3]
      simp only [Option.bind_some, Option.bind_none]
      rcases hx : g.lods[k]? with _ | x
      · left; simp
      · right; left; exact ⟨x, rfl, by simp, rfl⟩
    · rw [e1, e2, e3]
      simp only [Option.bind_some]
      exact h3.at k

theorem colMerge_skeleton {h h' : Heap} {a b c : ColMesh F Nat}
    (hm : colMerge h a b = (h', c, none)) : c.skeleton = a.skeleton := by
  obtain ⟨⟨h1, h2, h3⟩, h4, -⟩ := colMerge_ok hm
  unfold ColMesh.skeleton
  rw [h1, h2, h3, h4.map_eq]
  intro ga gb gc ⟨e1, e2⟩
  rw [e1, e2.map_eq]
  intro sa sb sc ⟨e3, e4⟩
  rw [e3, e4.2.1]

theorem colMerge_err (h : Heap) (a b : ColMesh F Nat) :
    ((colMerge h a b).2.2 = none ↔ Matches a b) ∧
    ∀ e, (colMerge h a b).2.2 = some e → e = .indexError := by
  have h1 : ∀ (h : Heap) (a b : ColSub F Nat),
      ((colMergeSub h a b).2.2 = none ↔ b.lods.length ≤ a.lods.length) ∧
      ∀ e, (colMergeSub h a b).2.2 = some e → e = .indexError := by
    intro h a b
    have := mergeAll_err (f := fun h (a b : ColLod F Nat) =>
      ((colMergeLod h a b).1, (colMergeLod h a b).2, none)) (Q := fun _ _ => True)
      (fun h a b => ⟨by simp, by simp⟩) h a.lods b.lods
    exact ⟨this.1.trans (by simp), this.2⟩
  have h2 : ∀ (h : Heap) (a b : ColGeom F Nat),
      ((colMergeGeom h a b).2.2 = none ↔ b.subgeoms.length ≤ a.subgeoms.length ∧
        ∀ (j : Nat) (sa sb : ColSub F Nat), a.subgeoms[j]? = some sa → b.subgeoms[j]? = some sb →
          sb.lods.length ≤ sa.lods.length) ∧
      ∀ e, (colMergeGeom h a b).2.2 = some e → e = .indexError :=
    fun h a b => mergeAll_err h1 h a.subgeoms b.subgeoms
  exact mergeAll_err h2 h a.geoms b.geoms

/-! ## Bounds -/

section
variable [LawfulLt F]

theorem lower1_fold (g : Vec3 F → F) (vs : List (Vec3 F)) (l0 : F) :
    (∀ v ∈ vs, FArith.lt (g v) (vs.foldl (fun l v => lower1 l (g v)) l0) = false) ∧
    (∀ x, FArith.lt x l0 = false → FArith.lt x (vs.foldl (fun l v => lower1 l (g v)) l0) = false) ∧
    (vs.foldl (fun l v => lower1 l (g v)) l0 = l0 ∨
      ∃ v ∈ vs, vs.foldl (fun l v => lower1 l (g v)) l0 = g v) := by
  induction vs generalizing l0 with
  | nil => simp
  | cons v vs ih =>
    obtain ⟨i1, i2, i3⟩ := ih (lower1 l0 (g v))
    simp only [List.foldl_cons]
    have k1 : FArith.lt (g v) (lower1 l0 (g v)) = false := by
      unfold lower1
      split
      · exact LawfulLt.irrefl _
      · next h => simpa using h
    have k2 : ∀ x, FArith.lt x l0 = false → FArith.lt x (lower1 l0 (g v)) = false := by
      intro x hx
      unfold lower1
      split
      · next h =>
        by_contra hc
        rw [LawfulLt.trans _ _ _ (by simpa using hc) h] at hx
        cases hx
      · exact hx
    refine ⟨?_, fun x hx => i2 x (k2 x hx), ?_⟩
    · intro w hw
      rcases List.mem_cons.1 hw with rfl | hw
      · exact i2 _ k1
      · exact i1 w hw
    · rcases i3 with h | ⟨w, hw, h⟩
      · rw [h]
        unfold lower1
        split
        · exact .inr ⟨v, by simp, rfl⟩
        · exact .inl rfl
      · exact .inr ⟨w, by simp [hw], h⟩

theorem raise1_fold (g : Vec3 F → F) (vs : List (Vec3 F)) (l0 : F) :
    (∀ v ∈ vs, FArith.lt (vs.foldl (fun l v => raise1 l (g v)) l0) (g v) = false) ∧
    (∀ x, FArith.lt l0 x = false → FArith.lt (vs.foldl (fun l v => raise1 l (g v)) l0) x = false) ∧
    (vs.foldl (fun l v => raise1 l (g v)) l0 = l0 ∨
      ∃ v ∈ vs, vs.foldl (fun l v => raise1 l (g v)) l0 = g v) := by
  induction vs generalizing l0 with
  | nil => simp
  | cons v vs ih =>
    obtain ⟨i1, i2, i3⟩ := ih (raise1 l0 (g v))
    simp only [List.foldl_cons]
    have k1 : FArith.lt (raise1 l0 (g v)) (g v) = false := by
      unfold raise1
      split
      · exact LawfulLt.irrefl _
      · next h => simpa using h
    have k2 : ∀ x, FArith.lt l0 x = false → FArith.lt (raise1 l0 (g v)) x = false := by
      intro x hx
      unfold raise1
      split
      · next h =>
        by_contra hc
        rw [LawfulLt.trans _ _ _ h (by simpa using hc)] at hx
        cases hx
      · exact hx
    refine ⟨?_, fun x hx => i2 x (k2 x hx), ?_⟩
    · intro w hw
      rcases List.mem_cons.1 hw with rfl | hw
      · exact i2 _ k1
      · exact i1 w hw
    · rcases i3 with h | ⟨w, hw, h⟩
      · rw [h]
        unfold raise1
        split
        · exact .inr ⟨v, by simp, rfl⟩
        · exact .inl rfl
      · exact .inr ⟨w, by simp [hw], h⟩

omit [LawfulLt F] in
theorem lowerTo_comp (vs : List (Vec3 F)) (l0 : Vec3 F) (c : Fin 3) :
    (vs.foldl lowerTo l0).comp c = vs.foldl (fun l v => lower1 l (v.comp c)) (l0.comp c) := by
  induction vs generalizing l0 with
  | nil => rfl
  | cons v vs ih =>
    rw [List.foldl_cons, List.foldl_cons, ih]
    congr 1
    match c with
    | 0 => rfl
    | 1 => rfl
    | 2 => rfl

omit [LawfulLt F] in
theorem raiseTo_comp (vs : List (Vec3 F)) (l0 : Vec3 F) (c : Fin 3) :
    (vs.foldl raiseTo l0).comp c = vs.foldl (fun l v => raise1 l (v.comp c)) (l0.comp c) := by
  induction vs generalizing l0 with
  | nil => rfl
  | cons v vs ih =>
    rw [List.foldl_cons, List.foldl_cons, ih]
    congr 1
    match c with
    | 0 => rfl
    | 1 => rfl
    | 2 => rfl

theorem fold_extended (vs : List (Vec3 F)) (low high : Vec3 F) :
    Extended low high vs (vs.foldl lowerTo low) (vs.foldl raiseTo high) where
  covers := by
    intro v hv c
    rw [lowerTo_comp, raiseTo_comp]
    exact ⟨(lower1_fold (·.comp c) vs _).1 v hv, (raise1_fold (·.comp c) vs _).1 v hv⟩
  grows := by
    intro c
    rw [lowerTo_comp, raiseTo_comp]
    exact ⟨(lower1_fold (·.comp c) vs _).2.1 _ (LawfulLt.irrefl _),
      (raise1_fold (·.comp c) vs _).2.1 _ (LawfulLt.irrefl _)⟩
  attained := by
    intro c
    rw [lowerTo_comp, raiseTo_comp]
    exact ⟨(lower1_fold (·.comp c) vs _).2.2, (raise1_fold (·.comp c) vs _).2.2⟩

end

end

/-! ## Moving -/

section
variable {F φ : Type} [FArith F]

theorem colTranslate_lodAt (off : Vec3 F) (m : ColMesh F φ) (i j k : Nat) :
    (colTranslate off m).lodAt i j k = (m.lodAt i j k).map fun l =>
      { l with vertices := l.vertices.map fun v => v.plus off } := by
  unfold ColMesh.lodAt colTranslate
  simp only [List.getElem?_map]
  rcases m.geoms[i]? with _ | g
  · rfl
  · simp only [Option.map_some, Option.bind_some, List.getElem?_map]
    rcases g.subgeoms[j]? with _ | s
    · rfl
    · simp only [Option.map_some, Option.bind_some, List.getElem?_map]

theorem colTranslate_erase (off : Vec3 F) (m : ColMesh F φ) :
    (colTranslate off m).eraseVertices = m.eraseVertices := by
  simp only [ColMesh.eraseVertices, colTranslate, List.map_map]
  congr 1
  refine List.map_congr_left fun g _ => ?_
  simp only [Function.comp, List.map_map]
  congr 1
  refine List.map_congr_left fun s _ => ?_
  simp only [Function.comp, List.map_map]
  congr 1

end

end Bf2
