import Verif.MergeLemmas
import Verif.RotateLemmas
import Verif.FloatValue
import Verif.Exact
import Mathlib.Tactic.FinCases

/-! # Lemmas about `updateBoundaries` -/

namespace Bf2

variable {F : Type}

instance : LawfulLt F64 where
  irrefl x := by
    show F64.lt' x x = false
    simp [F64.lt']
  trans x y z h1 h2 := by
    change F64.lt' x y = true at h1
    change F64.lt' y z = true at h2
    show F64.lt' x z = true
    simp only [F64.lt', Bool.and_eq_true, decide_eq_true_eq] at *
    exact ⟨⟨h1.1.1, h2.1.2⟩, h1.2.trans h2.2⟩

instance : LawfulLt ℝ where
  irrefl x := by
    show decide (x < x) = false
    simp
  trans x y z h1 h2 := by
    change decide (x < y) = true at h1
    change decide (y < z) = true at h2
    show decide (x < z) = true
    rw [decide_eq_true_eq] at *
    exact h1.trans h2

/-! ## Boxes -/

section
variable [FArith F]

theorem extend_min (b : Box F) (p : Vec3 F) (c : Fin 3) :
    (b.extend p).min.comp c = minUpd (b.min.comp c) (p.comp c) := by
  fin_cases c <;> rfl

theorem extend_max (b : Box F) (p : Vec3 F) (c : Fin 3) :
    (b.extend p).max.comp c = maxUpd (b.max.comp c) (p.comp c) := by
  fin_cases c <;> rfl

/-- What is not outside stays not outside. -/
theorem extend_keeps [LawfulLt F] (ps : List (Vec3 F)) (b : Box F) (c : Fin 3) (x : F)
    (h1 : FArith.lt x (b.min.comp c) = false) (h2 : FArith.lt (b.max.comp c) x = false) :
    FArith.lt x ((ps.foldl Box.extend b).min.comp c) = false ∧
      FArith.lt ((ps.foldl Box.extend b).max.comp c) x = false := by
  induction ps generalizing b with
  | nil => exact ⟨h1, h2⟩
  | cons p ps ih =>
    apply ih
    · rw [extend_min]
      unfold minUpd
      split
      · rename_i hp
        by_contra hx
        rw [Bool.not_eq_false] at hx
        rw [LawfulLt.trans _ _ _ hx hp] at h1
        simp at h1
      · exact h1
    · rw [extend_max]
      unfold maxUpd
      split
      · rename_i hp
        by_contra hx
        rw [Bool.not_eq_false] at hx
        rw [LawfulLt.trans _ _ _ hp hx] at h2
        simp at h2
      · exact h2

theorem fold_covers [LawfulLt F] (ps : List (Vec3 F)) (b : Box F) :
    Covers (ps.foldl Box.extend b).min (ps.foldl Box.extend b).max (· ∈ ps) := by
  induction ps generalizing b with
  | nil => intro x hx; simp at hx
  | cons p ps ih =>
    intro x hx c
    rcases List.mem_cons.1 hx with rfl | hx
    · rw [List.foldl_cons]
      apply extend_keeps
      · rw [extend_min]
        unfold minUpd
        split
        · exact LawfulLt.irrefl _
        · rename_i h; simpa using h
      · rw [extend_max]
        unfold maxUpd
        split
        · exact LawfulLt.irrefl _
        · rename_i h; simpa using h
    · exact ih (b.extend p) x hx c

/-- Each component comes from the start or from one of the vectors. -/
theorem fold_tight (ps : List (Vec3 F)) (b : Box F) (c : Fin 3) :
    ((ps.foldl Box.extend b).min.comp c = b.min.comp c ∨
        ∃ x ∈ ps, (ps.foldl Box.extend b).min.comp c = x.comp c) ∧
      ((ps.foldl Box.extend b).max.comp c = b.max.comp c ∨
        ∃ x ∈ ps, (ps.foldl Box.extend b).max.comp c = x.comp c) := by
  induction ps generalizing b with
  | nil => exact ⟨Or.inl rfl, Or.inl rfl⟩
  | cons p ps ih =>
    obtain ⟨h1, h2⟩ := ih (b.extend p)
    rw [List.foldl_cons]
    constructor
    · rcases h1 with h1 | ⟨x, hx, h1⟩
      · rw [extend_min] at h1
        unfold minUpd at h1
        split at h1
        · exact Or.inr ⟨p, by simp, h1⟩
        · exact Or.inl h1
      · exact Or.inr ⟨x, by simp [hx], h1⟩
    · rcases h2 with h2 | ⟨x, hx, h2⟩
      · rw [extend_max] at h2
        unfold maxUpd at h2
        split at h2
        · exact Or.inr ⟨p, by simp, h2⟩
        · exact Or.inl h2
      · exact Or.inr ⟨x, by simp [hx], h2⟩

theorem zero_comp (c : Fin 3) : (Box.zero : Box F).min.comp c = FArith.zero ∧
    (Box.zero : Box F).max.comp c = FArith.zero := by
  fin_cases c <;> exact ⟨rfl, rfl⟩

end

/-! ## The position of a vertex -/

theorem vertexAttrs_last {vf : Int} {buffer : List F} {attrs : List VAttr} {p : VAttr} {o n : Nat}
    {init r : Option (List F)} (hp : LastPosition attrs p) (hs : StartsAt vf p o)
    (hn : typeFloats p.vartype = some n)
    (h : foldE (vertexAttrs vf buffer) init attrs = .ok r) :
    r = some (pySlice buffer o (o + n)) := by
  obtain ⟨pre, post, rfl, hpos, hpost⟩ := hp
  rw [foldE_append] at h
  rcases he : foldE (vertexAttrs vf buffer) init pre with e | s
  · rw [he] at h; cases h
  · rw [he] at h
    simp only at h
    rw [foldE] at h
    have hv : vertexAttrs vf buffer s p = .ok (some (pySlice buffer o (o + n))) := by
      unfold vertexAttrs
      rw [if_neg hpos.2, attrPos_startsAt hs]
      simp only
      rw [declLen_eq, hn]
      simp only
      rw [hpos.1]
      rfl
    rw [hv] at h
    simp only at h
    refine foldE_inv (fun r => r = some (pySlice buffer o (o + n))) ?_ rfl h
    intro s s' a ha hI hstep
    unfold vertexAttrs at hstep
    split at hstep
    · cases hstep; exact hI
    · rename_i hf
      split at hstep
      · cases hstep
      · split at hstep
        · cases hstep
        · split at hstep
          · split at hstep
            · rename_i hu
              exact absurd ⟨hu, hf⟩ (hpost a ha)
            · cases hstep; exact hI
          · cases hstep

/-- Position of vertex `v`. -/
def vertexPos (vs o : Nat) (m : Mesh F) (a : Mat F) (v : Nat) : Option (Vec3 F) :=
  vec3At m.vertices ((a.vstart.toNat + v) * vs + o)

theorem vec3At_some {l : List F} {o : Nat} (h : o + 3 ≤ l.length) :
    vec3At l o = some ⟨l[o], l[o + 1], l[o + 2]⟩ := by
  unfold vec3At
  rw [List.getElem?_eq_getElem (by omega), List.getElem?_eq_getElem (by omega),
    List.getElem?_eq_getElem (by omega)]

theorem toVec3_of {l : List F} (h : 3 ≤ l.length) : toVec3 l = .ok ⟨l[0], l[1], l[2]⟩ := by
  match l, h with
  | x :: y :: z :: _, _ => rfl

/-- The position the code reads, as a place in the vertex array. -/
theorem toVec3_position {vs o n : Nat} {m : Mesh F} {a : Mat F} {v : Nat}
    (hin : VertsInside vs m a) (hv : (v : Int) < a.vnum) (hn : 3 ≤ n) (ho : o + 3 ≤ vs) :
    ∃ x, vertexPos vs o m a v = some x ∧
      toVec3 (pySlice (pySlice m.vertices ((a.vstart + v) * vs) ((a.vstart + v) * vs + vs))
        o (o + n)) = .ok x := by
  obtain ⟨h0, h1, h2⟩ := hin
  obtain ⟨s, hs⟩ := Int.eq_ofNat_of_zero_le h0
  have hle : (s + v) * vs + vs ≤ m.vertices.length := by
    have h3 : (s + v + 1) * vs ≤ (a.vstart + a.vnum).toNat * vs :=
      Nat.mul_le_mul_right _ (by omega)
    have h4 : (((a.vstart + a.vnum).toNat * vs : Nat) : Int) = (a.vstart + a.vnum) * vs := by
      push_cast; rw [Int.toNat_of_nonneg (by omega)]
    have h5 : (s + v + 1) * vs = (s + v) * vs + vs := by ring
    omega
  have e1 : (a.vstart + v) * vs = (((s + v) * vs : Nat) : Int) := by rw [hs]; push_cast; ring
  have e2 : (a.vstart + v) * vs + vs = (((s + v) * vs + vs : Nat) : Int) := by
    rw [hs]; push_cast; ring
  rw [e2, e1, pySlice_nat]
  have e3 : (s + v) * vs + vs - (s + v) * vs = vs := by omega
  rw [e3]
  have e4 : ((o : Int) + n) = ((o + n : Nat) : Int) := by push_cast; rfl
  rw [e4, pySlice_nat]
  have e5 : o + n - o = n := by omega
  rw [e5]
  have hlen : 3 ≤ (List.take n (List.drop o (List.take vs
      (List.drop ((s + v) * vs) m.vertices)))).length := by
    simp only [List.length_take, List.length_drop]
    omega
  refine ⟨_, ?_, toVec3_of hlen⟩
  unfold vertexPos
  have hst : a.vstart.toNat = s := by omega
  rw [hst, vec3At_some (by omega)]
  simp only [List.getElem_take, List.getElem_drop, Nat.add_zero, Nat.add_assoc]

/-! ## Folding over vertices -/

section
variable [FArith F]

/-- Positions of the vertices of a material. -/
def positions (vs o : Nat) (m : Mesh F) (a : Mat F) : List (Vec3 F) :=
  (List.range a.vnum.toNat).filterMap (vertexPos vs o m a)

omit [FArith F] in
theorem mem_positions {vs o : Nat} {m : Mesh F} {a : Mat F} {x : Vec3 F} :
    x ∈ positions vs o m a ↔ PosOf vs o m a x := by
  unfold positions PosOf vertexPos
  rw [List.mem_filterMap]
  constructor
  · rintro ⟨v, hv, h⟩
    exact ⟨v, by have := List.mem_range.1 hv; omega, h⟩
  · rintro ⟨v, hv, h⟩
    exact ⟨v, List.mem_range.2 (by omega), h⟩

omit [FArith F] in
theorem bounded_iff (m : Mesh F) : m.bounded = true ↔ Bounded m := by
  simp [Mesh.bounded, Bounded]

theorem boundVertex_eq {vs o : Nat} {m : Mesh F} {p : VAttr} {a : Mat F} {v : Nat}
    (hb : Bounded m) (hsz : VertexSize m.vattrs vs) (hpos : PositionAt vs o m p)
    (hin : VertsInside vs m a) (hv : (v : Int) < a.vnum) {s s' : Box F × Box F}
    (h : boundVertex m a s v = .ok s') :
    ∃ x, vertexPos vs o m a v = some x ∧ s' = (s.1.extend x, s.2.extend x) := by
  obtain ⟨n, hn, h3⟩ : ∃ n, typeFloats p.vartype = some n ∧ 3 ≤ n := by
    rcases hpos.wide with h | h <;> rw [h]
    · exact ⟨3, rfl, Nat.le_refl _⟩
    · exact ⟨4, rfl, by omega⟩
  obtain ⟨x, hx, ht⟩ := toVec3_position hin hv h3 hpos.fits
  refine ⟨x, hx, ?_⟩
  unfold boundVertex at h
  rw [(vertexSize_iff _ _).2 hsz] at h
  simp only at h
  rcases hf : foldE (vertexAttrs m.vertformat (pySlice m.vertices ((a.vstart + v) * vs)
      ((a.vstart + v) * vs + vs))) none m.vattrs with e | r
  · rw [hf] at h; cases h
  · rw [hf] at h
    have hr := vertexAttrs_last hpos.last hpos.start hn hf
    subst hr
    simp only at h
    rw [if_pos ((bounded_iff m).2 hb), ht] at h
    cases h
    rfl

theorem boundVertices_eq {vs o : Nat} {m : Mesh F} {p : VAttr} {a : Mat F}
    (hb : Bounded m) (hsz : VertexSize m.vattrs vs) (hpos : PositionAt vs o m p)
    (hin : VertsInside vs m a) (l : List Nat) (hl : ∀ v ∈ l, (v : Int) < a.vnum)
    (s s' : Box F × Box F) (h : foldE (boundVertex m a) s l = .ok s') :
    s' = ((l.filterMap (vertexPos vs o m a)).foldl Box.extend s.1,
      (l.filterMap (vertexPos vs o m a)).foldl Box.extend s.2) := by
  induction l generalizing s with
  | nil => cases h; rfl
  | cons v l ih =>
    rw [foldE] at h
    rcases hs : boundVertex m a s v with e | t
    · rw [hs] at h; cases h
    · rw [hs] at h
      obtain ⟨x, hx, rfl⟩ := boundVertex_eq hb hsz hpos hin (hl v (by simp)) hs
      rw [ih (fun w hw => hl w (by simp [hw])) _ h, List.filterMap_cons_some hx]
      rfl

theorem boundMat_eq {vs o : Nat} {m : Mesh F} {p : VAttr} {a a' : Mat F}
    (hb : Bounded m) (hsz : VertexSize m.vattrs vs) (hpos : PositionAt vs o m p)
    (hin : VertsInside vs m a) {b b' : Box F} (h : boundMat m b a = (b', a', none)) :
    b' = (positions vs o m a).foldl Box.extend b ∧
      a' = { a with
        mmin := some ((positions vs o m a).foldl Box.extend Box.zero).min
        mmax := some ((positions vs o m a).foldl Box.extend Box.zero).max } := by
  unfold boundMat at h
  rcases hf : foldE (boundVertex m a) (Box.zero, b) (List.range a.vnum.toNat) with e | ⟨x, y⟩
  · rw [hf] at h; simp at h
  · rw [hf] at h
    simp only at h
    rw [if_pos ((bounded_iff m).2 hb)] at h
    have := boundVertices_eq hb hsz hpos hin _ (fun v hv => by
      have := List.mem_range.1 hv; omega) _ _ hf
    simp only [Prod.mk.injEq] at this h
    obtain ⟨rfl, rfl⟩ := this
    exact ⟨h.1.symm, h.2.1.symm⟩

end

/-- A loop without exception, element by element. -/
theorem trav_none {σ α : Type} {f : σ → α → σ × α × Option Err} {s s' : σ} {a : α} {as l : List α}
    (h : trav f s (a :: as) = (s', l, none)) :
    ∃ t a' as', f s a = (t, a', none) ∧ trav f t as = (s', as', none) ∧ l = a' :: as' := by
  rw [trav] at h
  rcases hf : f s a with ⟨t, a', _ | e⟩
  · rw [hf] at h
    simp only at h
    rcases hr : trav f t as with ⟨s2, as', e⟩
    rw [hr] at h
    simp only [Prod.mk.injEq] at h
    obtain ⟨rfl, rfl, rfl⟩ := h
    exact ⟨t, a', as', rfl, hr, rfl⟩
  · rw [hf] at h; simp at h

/-- A loop without state and exception relates the elements by one step. -/
theorem trav_unit {α : Type} {f : Unit → α → Unit × α × Option Err} {l l' : List α}
    (h : trav f () l = ((), l', none)) :
    List.Forall₂ (fun a a' => f () a = ((), a', none)) l l' := by
  induction l generalizing l' with
  | nil =>
    simp only [trav, Prod.mk.injEq, true_and, and_true] at h
    subst h
    exact .nil
  | cons a as ih =>
    obtain ⟨⟨⟩, a', as', h1, h2, rfl⟩ := trav_none h
    exact .cons h1 (ih h2)

theorem forall₂_imp_mem {α β : Type} {R S : α → β → Prop} {l : List α} {r : List β}
    (h : List.Forall₂ R l r) (himp : ∀ a ∈ l, ∀ b, R a b → S a b) : List.Forall₂ S l r := by
  induction h with
  | nil => exact .nil
  | cons hab _ ih =>
    exact .cons (himp _ (by simp) _ hab) (ih fun a ha b hR => himp a (by simp [ha]) b hR)

section
variable [FArith F]

theorem boundMats_eq {vs o : Nat} {m : Mesh F} {p : VAttr}
    (hb : Bounded m) (hsz : VertexSize m.vattrs vs) (hpos : PositionAt vs o m p)
    (as as' : List (Mat F)) (hin : ∀ a ∈ as, VertsInside vs m a) (b b' : Box F)
    (h : trav (boundMat m) b as = (b', as', none)) :
    b' = (as.flatMap (positions vs o m)).foldl Box.extend b ∧
      as' = as.map fun a => { a with
        mmin := some ((positions vs o m a).foldl Box.extend Box.zero).min
        mmax := some ((positions vs o m a).foldl Box.extend Box.zero).max } := by
  induction as generalizing as' b with
  | nil =>
    simp only [trav, Prod.mk.injEq, and_true] at h
    obtain ⟨rfl, rfl⟩ := h
    exact ⟨rfl, rfl⟩
  | cons a as ih =>
    obtain ⟨t, a', as'', h1, h2, rfl⟩ := trav_none h
    obtain ⟨rfl, rfl⟩ := boundMat_eq hb hsz hpos (hin a (by simp)) h1
    obtain ⟨e1, e2⟩ := ih as'' (fun a ha => hin a (by simp [ha])) _ h2
    rw [List.flatMap_cons, List.foldl_append, List.map_cons, ← e2]
    exact ⟨e1, rfl⟩

/-- Where the bounds of a successful update come from. -/
theorem update_bounds {vs o : Nat} {m m' : Mesh F} {p : VAttr} (hb : Bounded m)
    (hsz : VertexSize m.vattrs vs) (hpos : PositionAt vs o m p)
    (hin : ∀ a ∈ m.mats, VertsInside vs m a) (h : updateBoundaries m = (m', none))
    (P : Vec3 F → Vec3 F → (Vec3 F → Prop) → Prop)
    (hP : ∀ ps : List (Vec3 F), P (ps.foldl Box.extend Box.zero).min
      (ps.foldl Box.extend Box.zero).max (· ∈ ps)) : BoundsAre P vs o m m' := by
  unfold updateBoundaries at h
  rcases ht : trav (boundGeom m) () m.geoms with ⟨⟨⟩, gs, e⟩
  rw [ht] at h
  simp only [Prod.mk.injEq] at h
  obtain ⟨rfl, rfl⟩ := h
  refine forall₂_imp_mem (trav_unit ht) fun g hg g' hgg => ?_
  unfold boundGeom at hgg
  rcases htl : trav (boundLod m) () g.lods with ⟨⟨⟩, ls, e⟩
  rw [htl] at hgg
  simp only [Prod.mk.injEq, true_and] at hgg
  obtain ⟨rfl, rfl⟩ := hgg
  refine forall₂_imp_mem (trav_unit htl) fun l hl l' hll => ?_
  unfold boundLod at hll
  rcases htm : trav (boundMat m) Box.zero l.materials with ⟨b, ms, _ | e⟩
  · rw [htm] at hll
    simp only [Prod.mk.injEq, true_and, and_true] at hll
    subst hll
    have hmem : ∀ a ∈ l.materials, a ∈ m.mats := fun a ha =>
      List.mem_flatMap.2 ⟨g, hg, List.mem_flatMap.2 ⟨l, hl, ha⟩⟩
    obtain ⟨rfl, rfl⟩ := boundMats_eq hb hsz hpos _ _ (fun a ha => hin a (hmem a ha)) _ _ htm
    constructor
    · have := hP (l.materials.flatMap (positions vs o m))
      have hset : (fun x => x ∈ l.materials.flatMap (positions vs o m)) =
          fun x => ∃ a ∈ l.materials, PosOf vs o m a x := by
        funext x
        rw [List.mem_flatMap]
        simp only [mem_positions]
      rw [hset] at this
      exact this
    · refine forall₂_map_self fun a _ => ⟨_, _, rfl, rfl, ?_⟩
      have := hP (positions vs o m a)
      have hset : (fun x => x ∈ positions vs o m a) = PosOf vs o m a := by
        funext x
        exact propext mem_positions
      rw [hset] at this
      exact this
  · rw [htm] at hll
    simp at hll

/-! ## Meshes without bounds -/

theorem boundVertex_unbounded {m : Mesh F} {a : Mat F} {v : Nat} (hb : ¬ Bounded m)
    {s s' : Box F × Box F} (h : boundVertex m a s v = .ok s') : s' = s := by
  have hb' : ¬ (m.bounded = true) := fun h => hb ((bounded_iff m).1 h)
  unfold boundVertex at h
  split at h
  · cases h
  · simp only at h
    split at h
    · cases h
    · rw [if_neg hb'] at h
      cases h; rfl

theorem boundMat_unbounded {m : Mesh F} {a a' : Mat F} {b b' : Box F} (hb : ¬ Bounded m)
    (h : boundMat m b a = (b', a', none)) : b' = b ∧ a' = a := by
  have hb' : ¬ (m.bounded = true) := fun h => hb ((bounded_iff m).1 h)
  unfold boundMat at h
  rcases hf : foldE (boundVertex m a) (Box.zero, b) (List.range a.vnum.toNat) with e | ⟨x, y⟩
  · rw [hf] at h; simp at h
  · rw [hf] at h
    simp only at h
    rw [if_neg hb'] at h
    have : (x, y) = ((Box.zero, b) : Box F × Box F) :=
      foldE_inv (fun s => s = (Box.zero, b))
        (fun s s' v _ hI hs => by rw [boundVertex_unbounded hb hs]; exact hI) rfl hf
    simp only [Prod.mk.injEq] at this h
    exact ⟨h.1.symm.trans this.2, h.2.1.symm⟩

theorem boundMats_unbounded {m : Mesh F} {as as' : List (Mat F)} {b b' : Box F} (hb : ¬ Bounded m)
    (h : trav (boundMat m) b as = (b', as', none)) : b' = b ∧ as' = as := by
  induction as generalizing as' b with
  | nil =>
    simp only [trav, Prod.mk.injEq, and_true] at h
    exact ⟨h.1.symm, h.2.symm⟩
  | cons a as ih =>
    obtain ⟨t, a', as'', h1, h2, rfl⟩ := trav_none h
    obtain ⟨rfl, rfl⟩ := boundMat_unbounded hb h1
    obtain ⟨e1, rfl⟩ := ih h2
    exact ⟨e1, rfl⟩

/-! ## Success -/

/-- The update raises nothing when every used attribute has a known type and usage. -/
theorem boundVertex_ok {vs o : Nat} {m : Mesh F} {p : VAttr} {a : Mat F} {v : Nat}
    (hsz : VertexSize m.vattrs vs) (hpos : PositionAt vs o m p)
    (hattr : AttrsKnown m)
    (hin : VertsInside vs m a) (hv : (v : Int) < a.vnum) (s : Box F × Box F) :
    ∃ s', boundVertex m a s v = .ok s' := by
  obtain ⟨n, hn, h3⟩ : ∃ n, typeFloats p.vartype = some n ∧ 3 ≤ n := by
    rcases hpos.wide with h | h <;> rw [h]
    · exact ⟨3, rfl, Nat.le_refl _⟩
    · exact ⟨4, rfl, by omega⟩
  obtain ⟨x, hx, ht⟩ := toVec3_position hin hv h3 hpos.fits
  obtain ⟨r, hr, -⟩ := foldE_ok (f := vertexAttrs m.vertformat (pySlice m.vertices
      ((a.vstart + v) * vs) ((a.vstart + v) * vs + vs))) (fun _ => True) (l := m.vattrs)
    (fun s b hb _ => by
      unfold vertexAttrs
      split
      · exact ⟨_, rfl, trivial⟩
      · rename_i hf
        obtain ⟨hu, ⟨k, hk⟩, q, hq⟩ := hattr b hb hf
        rw [attrPos_startsAt hq]
        simp only
        rw [declLen_eq, hk]
        simp only
        rw [if_pos ((usageKnown_iff _).2 hu)]
        split <;> exact ⟨_, rfl, trivial⟩) (s := none) trivial
  have hr' := vertexAttrs_last hpos.last hpos.start hn hr
  subst hr'
  unfold boundVertex
  rw [(vertexSize_iff _ _).2 hsz]
  simp only
  rw [hr]
  simp only
  rw [ht]
  split <;> exact ⟨_, rfl⟩

theorem boundVertex_ok_unbounded {vs : Nat} {m : Mesh F} {a : Mat F} {v : Nat} (hb : ¬ Bounded m)
    (hsz : VertexSize m.vattrs vs) (hattr : AttrsKnown m) (s : Box F × Box F) :
    boundVertex m a s v = .ok s := by
  obtain ⟨r, hr, -⟩ := foldE_ok (f := vertexAttrs m.vertformat (pySlice m.vertices
      ((a.vstart + v) * vs) ((a.vstart + v) * vs + vs))) (fun _ => True) (l := m.vattrs)
    (fun s b hb _ => by
      unfold vertexAttrs
      split
      · exact ⟨_, rfl, trivial⟩
      · rename_i hf
        obtain ⟨hu, ⟨k, hk⟩, q, hq⟩ := hattr b hb hf
        rw [attrPos_startsAt hq]
        simp only
        rw [declLen_eq, hk]
        simp only
        rw [if_pos ((usageKnown_iff _).2 hu)]
        split <;> exact ⟨_, rfl, trivial⟩) (s := none) trivial
  unfold boundVertex
  rw [(vertexSize_iff _ _).2 hsz]
  simp only
  rw [hr]
  simp only
  rw [if_neg (fun h => hb ((bounded_iff m).1 h))]

/-- A loop whose every step succeeds, succeeds. -/
theorem trav_ok {σ α : Type} {f : σ → α → σ × α × Option Err} (l : List α)
    (h : ∀ s, ∀ a ∈ l, (f s a).2.2 = none) (s : σ) : (trav f s l).2.2 = none := by
  induction l generalizing s with
  | nil => rfl
  | cons a as ih =>
    have ha := h s a (by simp)
    rw [trav]
    rcases hf : f s a with ⟨t, a', _ | e⟩
    · exact ih (fun s b hb => h s b (by simp [hb])) t
    · rw [hf] at ha; simp at ha

theorem update_ok_of {m : Mesh F} (hstep : ∀ a ∈ m.mats, ∀ v : Nat, (v : Int) < a.vnum →
    ∀ s, ∃ s', boundVertex m a s v = .ok s') : (updateBoundaries m).2 = none := by
  unfold updateBoundaries
  refine trav_ok m.geoms (fun _ g hg => ?_) ()
  unfold boundGeom
  refine trav_ok g.lods (fun _ l hl => ?_) ()
  have hm : (trav (boundMat m) Box.zero l.materials).2.2 = none := by
    refine trav_ok l.materials (fun b a ha => ?_) _
    obtain ⟨r, hr, -⟩ := foldE_ok (f := boundVertex m a) (fun _ => True)
      (l := List.range a.vnum.toNat) (fun s v hv _ => by
        obtain ⟨s', hs'⟩ := hstep a
          (List.mem_flatMap.2 ⟨g, hg, List.mem_flatMap.2 ⟨l, hl, ha⟩⟩) v
          (by have := List.mem_range.1 hv; omega) s
        exact ⟨s', hs', trivial⟩) (s := (Box.zero, b)) trivial
    unfold boundMat
    rw [hr]
    simp only
    split <;> rfl
  unfold boundLod
  rcases ht : trav (boundMat m) Box.zero l.materials with ⟨b, ms, e⟩
  rw [ht] at hm
  simp only at hm
  subst hm
  rfl

theorem update_ok {vs o : Nat} {m : Mesh F} {p : VAttr}
    (hsz : VertexSize m.vattrs vs) (hpos : PositionAt vs o m p) (hattr : AttrsKnown m)
    (hin : ∀ a ∈ m.mats, VertsInside vs m a) : (updateBoundaries m).2 = none :=
  update_ok_of fun a ha _ hv s => boundVertex_ok hsz hpos hattr (hin a ha) hv s

/-- The whole effect on a mesh without bounds. -/
theorem update_unbounded {m m' : Mesh F} (hb : ¬ Bounded m)
    (h : updateBoundaries m = (m', none)) :
    m' = { m with geoms := m.geoms.map fun g => { g with lods := g.lods.map fun l =>
      { l with min := ⟨FArith.zero, FArith.zero, FArith.zero⟩
               max := ⟨FArith.zero, FArith.zero, FArith.zero⟩ } } } := by
  have heq : ∀ {α : Type} {f : α → α} {R : α → α → Prop} {l l' : List α},
      List.Forall₂ R l l' → (∀ a b, R a b → b = f a) → l' = l.map f := by
    intro α f R l l' hR hf
    induction hR with
    | nil => rfl
    | cons hab _ ih => rw [hf _ _ hab, ih, List.map_cons]
  unfold updateBoundaries at h
  rcases ht : trav (boundGeom m) () m.geoms with ⟨⟨⟩, gs, e⟩
  rw [ht] at h
  simp only [Prod.mk.injEq] at h
  obtain ⟨rfl, rfl⟩ := h
  congr 1
  refine heq (trav_unit ht) fun g g' hg => ?_
  unfold boundGeom at hg
  rcases htl : trav (boundLod m) () g.lods with ⟨⟨⟩, ls, e⟩
  rw [htl] at hg
  simp only [Prod.mk.injEq, true_and] at hg
  obtain ⟨rfl, rfl⟩ := hg
  congr 1
  refine heq (trav_unit htl) fun l l' hl => ?_
  unfold boundLod at hl
  rcases htm : trav (boundMat m) Box.zero l.materials with ⟨b, ms, _ | e⟩
  · rw [htm] at hl
    simp only [Prod.mk.injEq, true_and, and_true] at hl
    obtain ⟨rfl, rfl⟩ := boundMats_unbounded hb htm
    exact hl.symm
  · rw [htm] at hl
    simp at hl

/-! ## Idempotence and locality -/

theorem trav_idem {σ α : Type} {f g : σ → α → σ × α × Option Err}
    (h : ∀ s a, g s (f s a).2.1 = f s a) (hfg : g = f) (s : σ) (l : List α) :
    trav g s (trav f s l).2.1 = trav f s l := by
  subst hfg
  induction l generalizing s with
  | nil => rfl
  | cons a as ih =>
    have ha := h s a
    rw [trav]
    rcases hf : g s a with ⟨s', a', _ | e⟩
    · rw [hf] at ha
      simp only at ha ⊢
      rw [trav, ha]
      simp only
      rw [ih s']
    · rw [hf] at ha
      simp only at ha ⊢
      rw [trav, ha]

theorem boundMat_idem (m : Mesh F) (b : Box F) (a : Mat F) :
    boundMat m b (boundMat m b a).2.1 = boundMat m b a := by
  have hv : ∀ (a a' : Mat F), a'.vstart = a.vstart → boundVertex m a' = boundVertex m a := by
    intro a a' h
    funext s v
    unfold boundVertex
    rw [h]
  rcases hf : foldE (boundVertex m a) (Box.zero, b) (List.range a.vnum.toNat) with e | ⟨x, y⟩
  · have h1 : boundMat m b a = (b, a, some e) := by unfold boundMat; rw [hf]
    rw [h1]
    exact h1
  · by_cases hb : m.bounded = true
    · have h1 : boundMat m b a = (y, { a with mmin := some x.min, mmax := some x.max }, none) := by
        unfold boundMat; rw [hf]; simp only; rw [if_pos hb]
      rw [h1]
      unfold boundMat
      rw [hv a { a with mmin := some x.min, mmax := some x.max } rfl, hf]
      simp only
      rw [if_pos hb]
    · have h1 : boundMat m b a = (y, a, none) := by
        unfold boundMat; rw [hf]; simp only; rw [if_neg hb]
      rw [h1]
      exact h1

theorem boundLod_idem (m : Mesh F) (u : Unit) (l : Lod F) :
    boundLod m u (boundLod m u l).2.1 = boundLod m u l := by
  have h := trav_idem (boundMat_idem m) rfl Box.zero l.materials
  rcases ht : trav (boundMat m) Box.zero l.materials with ⟨b, ms, _ | e⟩
  · have h1 : boundLod m u l = ((), { l with materials := ms, min := b.min, max := b.max }, none) := by
      unfold boundLod; rw [ht]
    rw [h1]
    rw [ht] at h
    unfold boundLod
    simp only at h ⊢
    rw [h]
  · have h1 : boundLod m u l = ((), { l with materials := ms }, some e) := by
      unfold boundLod; rw [ht]
    rw [h1]
    rw [ht] at h
    unfold boundLod
    simp only at h ⊢
    rw [h]

theorem boundGeom_idem (m : Mesh F) (u : Unit) (g : Geom F) :
    boundGeom m u (boundGeom m u g).2.1 = boundGeom m u g := by
  have h := trav_idem (boundLod_idem m) rfl () g.lods
  unfold boundGeom
  rcases ht : trav (boundLod m) () g.lods with ⟨⟨⟩, ls, e⟩
  rw [ht] at h
  simp only at h ⊢
  rw [h]

theorem boundGeom_congr (m : Mesh F) (gs : List (Geom F)) :
    boundGeom { m with geoms := gs } = boundGeom m := rfl

theorem update_idem (m : Mesh F) :
    updateBoundaries (updateBoundaries m).1 = updateBoundaries m := by
  have h := trav_idem (boundGeom_idem m) rfl () m.geoms
  unfold updateBoundaries
  rcases ht : trav (boundGeom m) () m.geoms with ⟨⟨⟩, gs, e⟩
  rw [ht] at h
  simp only at h ⊢
  rw [boundGeom_congr, h]

theorem boundMat_erase (m : Mesh F) (b : Box F) (a : Mat F) :
    ({ (boundMat m b a).2.1 with mmin := none, mmax := none } : Mat F) =
      { a with mmin := none, mmax := none } := by
  unfold boundMat
  split
  · rfl
  · split <;> rfl

theorem update_erase (z : Vec3 F) (m : Mesh F) :
    (updateBoundaries m).1.eraseBounds z = m.eraseBounds z := by
  have hl : ∀ (u : Unit) (l : Lod F),
      Lod.eraseBounds z (boundLod m u l).2.1 = Lod.eraseBounds z l := by
    intro u l
    have h := trav_map (boundMat m) (fun a : Mat F => ({ a with mmin := none, mmax := none } : Mat F))
      (boundMat_erase m) Box.zero l.materials
    unfold boundLod
    rcases ht : trav (boundMat m) Box.zero l.materials with ⟨b, ms, _ | e⟩
    · rw [ht] at h
      simp only [Lod.eraseBounds] at h ⊢
      rw [h]
    · rw [ht] at h
      simp only [Lod.eraseBounds] at h ⊢
      rw [h]
  have hg : ∀ (u : Unit) (g : Geom F),
      ({ (boundGeom m u g).2.1 with lods := (boundGeom m u g).2.1.lods.map (Lod.eraseBounds z) } :
        Geom F) = { g with lods := g.lods.map (Lod.eraseBounds z) } := by
    intro u g
    have h := trav_map (boundLod m) (Lod.eraseBounds z) hl () g.lods
    unfold boundGeom
    simp only
    rw [h]
  have h := trav_map (boundGeom m)
    (fun g : Geom F => ({ g with lods := g.lods.map (Lod.eraseBounds z) } : Geom F)) hg () m.geoms
  unfold updateBoundaries Mesh.eraseBounds
  simp only
  rw [h]

end

/-! ## Order of doubles and their values -/

theorem decMag_succ (p : ℕ) (emin : ℤ) (b : ℕ) : decMag p emin b < decMag p emin (b + 1) := by
  have hP : 0 < 2 ^ p := by positivity
  have hd := Nat.div_add_mod b (2 ^ p)
  have hr : b % 2 ^ p < 2 ^ p := Nat.mod_lt _ hP
  set q := b / 2 ^ p with hq
  set r := b % 2 ^ p with hr'
  by_cases hc : r + 1 < 2 ^ p
  · have hq' : (b + 1) / 2 ^ p = q := by
      rw [← hd, Nat.add_assoc, Nat.mul_add_div hP, Nat.div_eq_of_lt hc, Nat.add_zero]
    have hr'' : (b + 1) % 2 ^ p = r + 1 := by
      rw [← hd, Nat.add_assoc, Nat.mul_add_mod, Nat.mod_eq_of_lt hc]
    unfold decMag
    rw [hq', hr'', ← hq, ← hr']
    split
    · exact mul_lt_mul_of_pos_right (by push_cast; linarith) (two_zpow_pos _)
    · exact mul_lt_mul_of_pos_right (by push_cast; linarith) (two_zpow_pos _)
  · have hb : b + 1 = 2 ^ p * (q + 1) := by
      rw [Nat.mul_add, Nat.mul_one]; omega
    have hq' : (b + 1) / 2 ^ p = q + 1 := by rw [hb, Nat.mul_div_cancel_left _ hP]
    have hr'' : (b + 1) % 2 ^ p = 0 := by rw [hb, Nat.mul_mod_right]
    have hrq : ((r : ℕ) : ℚ) = 2 ^ p - 1 := by
      have : r + 1 = 2 ^ p := by omega
      have h2 : ((r + 1 : ℕ) : ℚ) = ((2 ^ p : ℕ) : ℚ) := by rw [this]
      push_cast at h2
      linarith
    unfold decMag
    rw [hq', hr'', ← hq, ← hr', if_neg (Nat.succ_ne_zero q)]
    split
    · rename_i h0
      have hbr : b = r := by rw [← hd, h0]; simp
      rw [h0, hbr, hrq]
      have : emin + ((0 + 1 : ℕ) : ℤ) - 1 = emin := by push_cast; ring
      rw [this]
      exact mul_lt_mul_of_pos_right (by push_cast; linarith) (two_zpow_pos _)
    · rw [hrq]
      have : emin + ((q + 1 : ℕ) : ℤ) - 1 = (emin + (q : ℤ) - 1) + 1 := by push_cast; ring
      rw [this, zpow_add_one₀ (by norm_num : (2 : ℚ) ≠ 0)]
      have h2 := two_zpow_pos (emin + (q : ℤ) - 1)
      push_cast
      nlinarith

theorem decMag_lt_iff (p : ℕ) (emin : ℤ) (a b : ℕ) :
    decMag p emin a < decMag p emin b ↔ a < b :=
  (strictMono_nat_of_lt_succ (decMag_succ p emin)).lt_iff_lt

theorem decMag_zero (p : ℕ) (emin : ℤ) : decMag p emin 0 = 0 := by
  simp [decMag]

theorem decMag_eq_zero (p : ℕ) (emin : ℤ) (b : ℕ) : decMag p emin b = 0 ↔ b = 0 := by
  rw [← decMag_zero p emin, (strictMono_nat_of_lt_succ (decMag_succ p emin)).injective.eq_iff]

/-- The comparison of finite doubles is that of their values. -/
theorem lt'_iff {x y : F64} (hx : x.isFin = true) (hy : y.isFin = true) :
    F64.lt' x y = true ↔ x.value < y.value := by
  simp only [F64.isFin, decide_eq_true_eq] at hx hy
  have h : F64.lt' x y = true ↔ x.key < y.key := by
    simp only [F64.lt', F64.isNaN, Bool.and_eq_true, Bool.not_eq_true', decide_eq_false_iff_not,
      decide_eq_true_eq]
    constructor
    · exact fun h => h.2
    · exact fun h => ⟨⟨by omega, by omega⟩, h⟩
  rw [h, value_eq, value_eq]
  have h1 := decMag_lt_iff 52 (-1074) x.mag y.mag
  have h2 := decMag_lt_iff 52 (-1074) y.mag x.mag
  have hxn := decMag_nonneg 52 (-1074) x.mag
  have hyn := decMag_nonneg 52 (-1074) y.mag
  have hx0 := decMag_eq_zero 52 (-1074) x.mag
  have hy0 := decMag_eq_zero 52 (-1074) y.mag
  unfold F64.key
  cases x.neg <;> cases y.neg <;>
    simp only [if_true, if_false, one_mul, neg_mul, Bool.false_eq_true]
  · rw [h1]; omega
  · constructor
    · intro h; omega
    · intro h; linarith
  · constructor
    · intro h
      rcases Nat.eq_zero_or_pos x.mag with h0 | h0
      · have : 0 < y.mag := by omega
        have : decMag 52 (-1074) y.mag ≠ 0 := by rw [Ne, hy0]; omega
        have := lt_of_le_of_ne hyn (Ne.symm this)
        linarith
      · have : decMag 52 (-1074) x.mag ≠ 0 := by rw [Ne, hx0]; omega
        have := lt_of_le_of_ne hxn (Ne.symm this)
        linarith
    · intro h
      by_contra hc
      have e1 : x.mag = 0 := by omega
      have e2 : y.mag = 0 := by omega
      rw [hx0.2 e1, hy0.2 e2] at h
      simp at h
  · rw [neg_lt_neg_iff (a := decMag _ _ _), h2]; omega

end Bf2
