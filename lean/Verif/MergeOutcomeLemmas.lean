import Verif.MergeOutcomeSpec
import Verif.MergeLemmas

/-! # Lemmas for C124 -/

namespace Bf2

variable {F : Type}

theorem flatMapE_range_error {β : Type} {f : Nat → Except Err (List β)} {n : Nat} {e : Err}
    (h : flatMapE f (List.range n) = .error e) :
    ∃ i < n, f i = .error e ∧ ∀ j < i, ∃ l, f j = .ok l := by
  induction n generalizing f with
  | zero => cases h
  | succ n ih =>
    rw [List.range_succ_eq_map, flatMapE, flatMapE_map] at h
    rcases h0 : f 0 with e' | l
    · rw [h0] at h
      cases h
      exact ⟨0, by omega, h0, by intro j hj; omega⟩
    · rw [h0] at h
      simp only at h
      rcases h1 : flatMapE (fun c => f c.succ) (List.range n) with e' | r
      · rw [h1] at h
        cases h
        obtain ⟨i, hi, hf, hb⟩ := ih h1
        refine ⟨i + 1, by omega, hf, fun j hj => ?_⟩
        rcases j with _ | j
        · exact ⟨l, h0⟩
        · exact hb j (by omega)
      · rw [h1] at h; cases h

theorem flatMapE_range_ok {β : Type} {f : Nat → Except Err (List β)} {n : Nat} {r : List β}
    (h : flatMapE f (List.range n) = .ok r) : ∀ i < n, ∃ l, f i = .ok l := by
  induction n generalizing f r with
  | zero => intro i hi; omega
  | succ n ih =>
    rw [List.range_succ_eq_map, flatMapE, flatMapE_map] at h
    rcases h0 : f 0 with e' | l
    · rw [h0] at h; cases h
    · rw [h0] at h
      simp only at h
      rcases h1 : flatMapE (fun c => f c.succ) (List.range n) with e' | r
      · rw [h1] at h; cases h
      · intro i hi
        rcases i with _ | i
        · exact ⟨l, h0⟩
        · exact ih h1 i (by omega)

theorem names_of_pyPos {n : Nat} {id : Int} {j : Nat} (h : pyPos n id = some j) : Names n id j := by
  unfold pyPos at h
  simp only at h
  split at h <;> split at h <;> simp at h
  all_goals exact ⟨by omega, by omega⟩

theorem shiftsTo_iff {l : List Int} {b : Mat F} {n w : Int} {i : Nat} :
    ShiftsTo l b n i w ↔ ∃ v, pyGet l (b.istart + i) = some v ∧ w = v + n := by
  constructor
  · rintro ⟨k, v, hk, hv, rfl⟩
    refine ⟨v, ?_, rfl⟩
    unfold pyGet
    rw [pyPos_names hk]
    exact hv
  · rintro ⟨v, hv, rfl⟩
    unfold pyGet at hv
    split at hv
    · rename_i k hk
      exact ⟨k, v, names_of_pyPos hk, hv, rfl⟩
    · cases hv

theorem no_name_iff {l : List Int} {i : Int} : (∀ k, ¬ Names l.length i k) ↔ pyGet l i = none := by
  unfold pyGet
  constructor
  · intro h
    split
    · rename_i k hk
      exact absurd (names_of_pyPos hk) (h k)
    · rfl
  · intro h k hk
    rw [pyPos_names hk] at h
    have := hk.1
    simp at h
    omega

theorem shift_one_ok {l : List Int} {b : Mat F} {n : Int} {i : Nat} :
    (∃ r, shiftIndex (.many l) b.istart n i = .ok r) ↔ ∃ w, w ≤ 65535 ∧ ShiftsTo l b n i w := by
  simp only [shiftsTo_iff]
  unfold shiftIndex
  simp only
  rcases pyGet l (b.istart + i) with _ | v
  · simp
  · simp only [Option.some.injEq]
    constructor
    · rintro ⟨r, h⟩
      split at h
      · cases h
      · exact ⟨v + n, by omega, v, rfl, rfl⟩
    · rintro ⟨w, hw, v', rfl, rfl⟩
      rw [if_neg (by omega)]
      exact ⟨_, rfl⟩

theorem shift_fault {o : Mesh F} {a b : Mat F} {e : Err}
    (h : flatMapE (shiftIndex o.index b.istart a.vnum) (List.range b.inum.toNat) = .error e) :
    Fault o a b e := by
  obtain ⟨i, hi, hf, hb⟩ := flatMapE_range_error h
  rcases hx : o.index with v | l
  · rw [hx] at hf
    unfold shiftIndex at hf
    cases hf
    exact .oneIndex hx (by omega)
  · rw [hx] at hf hb
    have hfit : FitsBefore l b a.vnum i := fun j hj => shift_one_ok.1 (hb j hj)
    unfold shiftIndex at hf
    simp only at hf
    split at hf
    · rename_i hg
      cases hf
      exact .missing hx (by omega) hfit (no_name_iff.2 hg)
    · rename_i v hg
      split at hf
      · cases hf
        exact .tooBig hx (by omega) hfit (shiftsTo_iff.2 ⟨v, hg, rfl⟩) (by omega)
      · cases hf

theorem shift_no_fault {o : Mesh F} {a b : Mat F} {r : List Int}
    (h : flatMapE (shiftIndex o.index b.istart a.vnum) (List.range b.inum.toNat) = .ok r) (e : Err) :
    ¬ Fault o a b e := by
  have hall := flatMapE_range_ok h
  intro hf
  rcases hf with ⟨hx, hn⟩ | ⟨hx, hn, -, hm⟩ | ⟨hx, hn, -, hs, hw⟩
  · obtain ⟨l, hl⟩ := hall 0 (by omega)
    rw [hx] at hl
    cases hl
  · rename_i l i
    obtain ⟨r', hr⟩ := hall i (by omega)
    rw [hx] at hr
    obtain ⟨w, -, k, v, hk, -⟩ := shift_one_ok.1 ⟨r', hr⟩
    exact hm k hk
  · rename_i l i w
    obtain ⟨r', hr⟩ := hall i (by omega)
    rw [hx] at hr
    obtain ⟨w', hw', hs'⟩ := shift_one_ok.1 ⟨r', hr⟩
    rw [shiftsTo_iff] at hs hs'
    obtain ⟨v, hv, rfl⟩ := hs
    obtain ⟨v', hv', rfl⟩ := hs'
    rw [hv] at hv'
    cases hv'
    omega

/-- One step of the loop. -/
theorem mergeMat_outcome {vs ovs : Nat} {m o : Mesh F} {ix : List Int} (hm : VertexSize m.vattrs vs)
    (ho : VertexSize o.vattrs ovs) (hix : m.index = .many ix) (s : MergeSt F) (a b : Mat F) :
    (∃ e, Fault o a b e ∧ mergeMat m o s a b = (s, a, some e)) ∨
    (∀ e, ¬ Fault o a b e) ∧ ∃ v x, mergeMat m o s a b =
      (⟨v, x, s.vstart + (a.vnum + b.vnum), s.istart + (a.inum + b.inum),
        s.vertnum + (a.vnum + b.vnum), s.indexnum + (a.inum + b.inum)⟩,
        { a with vnum := a.vnum + b.vnum, inum := a.inum + b.inum
                 vstart := s.vstart, istart := s.istart }, none) := by
  unfold mergeMat
  rw [(vertexSize_iff _ _).2 hm, hix, (vertexSize_iff _ _).2 ho]
  simp only
  rcases h : flatMapE (shiftIndex o.index b.istart a.vnum) (List.range b.inum.toNat) with e | r
  · exact .inl ⟨e, shift_fault h, rfl⟩
  · exact .inr ⟨shift_no_fault h, _, _, rfl⟩

/-- `NumbersUpTo` from a start. -/
structure NumbersFrom (v0 i0 : Int) (k : Nat) (as bs as' : List (Mat F)) : Prop where
  before : ∀ (i : Nat) (a b : Mat F), i < k → as[i]? = some a → bs[i]? = some b →
    as'[i]? = some { a with
      vnum := a.vnum + b.vnum, inum := a.inum + b.inum
      vstart := v0 + (((as.take i).map Mat.vnum).sum + ((bs.take i).map Mat.vnum).sum)
      istart := i0 + (((as.take i).map Mat.inum).sum + ((bs.take i).map Mat.inum).sum) }
  after : ∀ i : Nat, k ≤ i → as'[i]? = as[i]?

theorem NumbersFrom.cons {v0 i0 : Int} {k : Nat} {a b : Mat F} {as bs as' : List (Mat F)}
    (h : NumbersFrom (v0 + (a.vnum + b.vnum)) (i0 + (a.inum + b.inum)) k as bs as') :
    NumbersFrom v0 i0 (k + 1) (a :: as) (b :: bs)
      ({ a with vnum := a.vnum + b.vnum, inum := a.inum + b.inum, vstart := v0, istart := i0 } ::
        as') := by
  constructor
  · intro i a1 b1 hi ha hb
    rcases i with _ | i
    · cases ha; cases hb
      simp
    · have := h.before i a1 b1 (by omega) ha hb
      simp only [List.getElem?_cons_succ, List.take_succ_cons, List.map_cons, List.sum_cons]
      rw [this]
      congr 2 <;> omega
  · intro i hi
    rcases i with _ | i
    · omega
    · exact h.after i (by omega)

theorem mergeMats_outcome {vs ovs : Nat} {m o : Mesh F} {ix : List Int}
    (hm : VertexSize m.vattrs vs) (ho : VertexSize o.vattrs ovs) (hix : m.index = .many ix)
    (s : MergeSt F) (as bs : List (Mat F)) (hlen : as.length = bs.length) :
    ∃ k s' as' err, trav2 (mergeMat m o) s as bs = (s', as', err) ∧
      NumbersFrom s.vstart s.istart k as bs as' ∧
      (∀ (i : Nat) a b e, i < k → as[i]? = some a → bs[i]? = some b → ¬ Fault o a b e) ∧
      ((err = none ∧ k = as.length ∧
          s'.vertnum = s.vertnum + ((as.map Mat.vnum).sum + (bs.map Mat.vnum).sum) ∧
          s'.indexnum = s.indexnum + ((as.map Mat.inum).sum + (bs.map Mat.inum).sum)) ∨
        ∃ e a b, err = some e ∧ as[k]? = some a ∧ bs[k]? = some b ∧ Fault o a b e) := by
  induction as generalizing s bs with
  | nil =>
    rcases bs with _ | ⟨b, bs⟩
    · exact ⟨0, s, [], none, rfl, ⟨by simp, by simp⟩, by simp, .inl ⟨rfl, rfl, by simp, by simp⟩⟩
    · simp at hlen
  | cons a as ih =>
    rcases bs with _ | ⟨b, bs⟩
    · simp at hlen
    · rw [trav2]
      rcases mergeMat_outcome hm ho hix s a b with ⟨e, hf, he⟩ | ⟨hno, v, x, he⟩
      · rw [he]
        exact ⟨0, s, a :: as, some e, rfl, ⟨by simp, by simp⟩, by simp,
          .inr ⟨e, a, b, rfl, rfl, rfl, hf⟩⟩
      · rw [he]
        obtain ⟨k, s', as', err, ht, hn, hb, hend⟩ := ih ⟨v, x, s.vstart + (a.vnum + b.vnum),
          s.istart + (a.inum + b.inum), s.vertnum + (a.vnum + b.vnum),
          s.indexnum + (a.inum + b.inum)⟩ bs (by simpa using hlen)
        simp only [ht]
        refine ⟨k + 1, s', _, err, rfl, hn.cons, ?_, ?_⟩
        · intro i a1 b1 e hi ha1 hb1
          rcases i with _ | i
          · cases ha1; cases hb1
            exact hno e
          · exact hb i a1 b1 e (by omega) ha1 hb1
        · rcases hend with ⟨h1, h2, h3, h4⟩ | ⟨e, a1, b1, h1, h2, h3, h4⟩
          · refine .inl ⟨h1, by simp [h2], ?_, ?_⟩
            · simp only at h3; simp only [List.map_cons, List.sum_cons]; omega
            · simp only at h4; simp only [List.map_cons, List.sum_cons]; omega
          · exact .inr ⟨e, a1, b1, h1, h2, h3, h4⟩

/-- The loop over the materials when the mesh has one index. -/
theorem mergeMats_one {vs : Nat} {m o : Mesh F} {v : Int} (hm : VertexSize m.vattrs vs)
    (hix : m.index = .one v) (s : MergeSt F) (as bs : List (Mat F)) (hlen : as.length = bs.length) :
    trav2 (mergeMat m o) s as bs = (s, as, if as = [] then none else some .typeError) := by
  rcases as with _ | ⟨a, as⟩
  · rfl
  · rcases bs with _ | ⟨b, bs⟩
    · simp at hlen
    · rw [trav2]
      unfold mergeMat
      rw [(vertexSize_iff _ _).2 hm, hix]
      rfl

end Bf2
