import Verif.OldEditTests
import Verif.OldTestsLemmas
import Verif.OldWriteTestsLemmas
import Verif.OldOrderLemmas
import Verif.OldHistoryLemmas

/-! # Lemmas about the skipped tests of the deprecated editing methods (C161) -/

namespace Bf2

/-- A test that ends without an exception, and passes exactly if `P`. -/
def Concludes (r : Except Err Bool) (P : Prop) : Prop := ∃ b, r = .ok b ∧ (b = true ↔ P)

theorem Concludes.iff {r : Except Err Bool} {P Q : Prop} (h : Concludes r P) (e : P ↔ Q) : Concludes r Q := by
  obtain ⟨b, h1, h2⟩ := h
  exact ⟨b, h1, h2.trans e⟩

theorem Concludes.last {b : Bool} {P : Prop} (h : b = true ↔ P) : Concludes (.ok b) P := ⟨b, rfl, h⟩

theorem Concludes.thenTrue {a : Bool} {r : Except Err Bool} {P : Prop} (ha : a = true) (h : Concludes r P) :
    Concludes (thenAssert a r) P := by
  rw [thenAssert, if_pos ha]
  exact h

theorem Concludes.andThen {r s : Except Err Bool} {P Q : Prop} (h : Concludes r P) (h' : Concludes s Q) :
    Concludes (Bf2.assertBoth r s) (P ∧ Q) := by
  obtain ⟨b, h1, h2⟩ := h
  obtain ⟨c, h3, h4⟩ := h'
  unfold Bf2.assertBoth
  rw [h1]
  cases b
  · refine ⟨false, rfl, ?_⟩
    simp at h2 ⊢
    exact fun h => absurd h h2
  · refine ⟨c, h3, ?_⟩
    simp at h2
    rw [h4]
    simp [h2]

theorem Concludes.each {α : Type} {f : α → Except Err Bool} {P : α → Prop} {l : List α}
    (h : ∀ a ∈ l, Concludes (f a) (P a)) : Concludes (assertEach f l) (∀ a ∈ l, P a) := by
  obtain ⟨b, hb⟩ := assertEach_total (fun a ha => let ⟨b, h1, _⟩ := h a ha; ⟨b, h1⟩)
  refine ⟨b, hb, ?_⟩
  have e : b = true ↔ assertEach f l = .ok true := by rw [hb]; simp
  rw [e, assertEach_true]
  refine forall₂_congr fun a ha => ?_
  obtain ⟨c, h1, h2⟩ := h a ha
  rw [h1, ← h2]
  simp

theorem Concludes.against {α : Type} {f : α → α → Except Err Bool} {P : α → Prop} {l : List α}
    (h : ∀ a ∈ l, Concludes (f a a) (P a)) : Concludes (assertAgainst f l l) (∀ a ∈ l, P a) := by
  unfold assertAgainst
  refine (Concludes.each (P := fun p : Nat × α => P p.2) fun p hp => ?_).iff ?_
  · have hp := numbered_mem.1 hp
    rw [hp]
    exact h _ (List.mem_of_getElem? hp)
  · constructor
    · intro h a ha
      obtain ⟨i, hi⟩ := List.mem_iff_getElem?.1 ha
      exact h (i, a) (numbered_mem.2 hi)
    · intro h p hp
      exact h _ (List.mem_of_getElem? (numbered_mem.1 hp))

theorem Concludes.rig {eq : Mat4 F64 → Mat4 F64 → Bool} {P : Mat4 F64 → Prop} (h : ∀ a, eq a a = true ↔ P a)
    (r : Rig F64) : Concludes (assertRig eq r r) (∀ b ∈ r.bones, P b.matrix) :=
  .thenTrue (by simp) (.against fun b _ => .thenTrue (by simp) (.last (h _)))

theorem pyGet_slice {α : Type} {l : List α} {s n : Int} (hs : 0 ≤ s) (hn : 0 ≤ n) {i : Nat} {x : α}
    (h : (pySlice l s (s + n))[i]? = some x) : pyGet l (s + i) = some x := by
  obtain ⟨s, rfl⟩ := Int.eq_ofNat_of_zero_le hs
  obtain ⟨n, rfl⟩ := Int.eq_ofNat_of_zero_le hn
  have h' : l[s + i]? = some x := by
    have e : ((s : Int) + (n : Int)) = ((s + n : Nat) : Int) := by push_cast; rfl
    rw [e, pySlice_nat, List.getElem?_take] at h
    split at h
    · rwa [List.getElem?_drop] at h
    · cases h
  have hlt := (List.getElem?_eq_some_iff.1 h').1
  unfold pyGet pyPos
  have e : ((s : Int) + (i : Int)) = ((s + i : Nat) : Int) := by push_cast; rfl
  rw [e]
  have h0 : ¬ ((s + i : Nat) : Int) < 0 := by omega
  simp only [h0, if_false]
  rw [if_pos ⟨by omega, by omega⟩]
  simp only [Int.toNat_natCast]
  exact h'

theorem Concludes.floats {l : List F64} {s n : Int} (hs : 0 ≤ s) (hn : 0 ≤ n) :
    Concludes (assertFloats l l s s n) True := by
  unfold assertFloats
  refine (Concludes.each (P := fun _ => True) fun p hp => ?_).iff (by simp)
  rw [pyGet_slice hs hn (numbered_mem.1 hp)]
  refine .last ?_
  rcases h : p.2.isNaN with _ | _
  · simp [(feq_iff _ _).2 ((numEq_self _).2 h)]
  · simp

theorem Concludes.index {l : List Int} {s n : Int} (hs : 0 ≤ s) (hn : 0 ≤ n) :
    Concludes (assertIndex l l s s n) True := by
  unfold assertIndex
  refine (Concludes.each (P := fun _ => True) fun p hp => ?_).iff (by simp)
  rw [pyGet_slice hs hn (numbered_mem.1 hp)]
  exact .last (by simp)

section
variable {F : Type}

theorem reversed_geoms {m : OldMesh F} (h : m.geoms.length = m.geomnum.toNat) :
    orderGeomsBy m (((List.range m.geomnum.toNat).map Int.ofNat).reverse) =
      ({ m with geoms := m.geoms.reverse }, none) := by
  unfold orderGeomsBy
  have e : ∀ js : List Nat, (∀ j ∈ js, j < m.geoms.length) →
      mapE (getE m.geoms) (js.map Int.ofNat) = .ok (js.filterMap fun j => m.geoms[j]?) := by
    intro js hjs
    induction js with
    | nil => rfl
    | cons j js ih =>
      have hj := hjs j (by simp)
      have hg : getE m.geoms (Int.ofNat j) = .ok m.geoms[j] := by
        unfold getE pyGet pyPos
        have h0 : ¬ (Int.ofNat j) < 0 := by simp
        simp only [h0, if_false]
        rw [if_pos ⟨by simp, by simpa using hj⟩]
        simp [List.getElem?_eq_getElem hj]
      rw [List.map_cons, mapE, hg, ih fun k hk => hjs k (by simp [hk])]
      simp [List.getElem?_eq_getElem hj]
  rw [← List.map_reverse, e _ (by intro j hj; rw [List.mem_reverse, List.mem_range] at hj; omega)]
  rw [List.filterMap_reverse, ← h, filterMap_range]

end

end Bf2
