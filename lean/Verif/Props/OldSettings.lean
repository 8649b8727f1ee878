import Verif.OldSettingsLemmas

/-!
# The material settings: C111
-/

namespace Bf2

/-- `keys` has the elements of `all`, in the order in which they occur first, none twice. -/
def FirstsOf (keys all : List Nat) : Prop :=
  (∀ k, k ∈ keys ↔ k ∈ all) ∧ keys.Pairwise fun j k => all.idxOf j < all.idxOf k

/-- From a settings file of cells and other lines, the damage a material does to another is the number of
the first cell for the two, rounded to a double; later cells for them are ignored.  There is an entry for
each material that attacks, in the order of their first cells. -/
theorem C111_settings {cells : List (Str × Cell)} {vs : List (Nat × Nat × F64)} {rest : Str}
    (h : List.Forall₂ (fun p v => OtherLines p.1 ∧ Cell.Reads p.2 v) cells vs) (hr : OtherLines rest) :
    (∀ a t, damageOf (parseSettings (settingsText cells rest)) a t =
      (vs.find? fun v => v.1 = a ∧ v.2.1 = t).map (·.2.2)) ∧
    FirstsOf ((parseSettings (settingsText cells rest)).map (·.1)) (vs.map (·.1)) := by
  unfold parseSettings
  rw [cellsOf_text h hr]
  clear h
  constructor
  · intro a t
    have : ∀ d, damageOf (vs.foldl addCell d) a t =
        (damageOf d a t).or ((vs.find? fun v => v.1 = a ∧ v.2.1 = t).map (·.2.2)) := by
      induction vs with
      | nil => simp
      | cons v vs ih =>
        intro d
        rw [List.foldl_cons, ih, addCell_damage, List.find?_cons]
        by_cases hv : v.1 = a ∧ v.2.1 = t
        · simp only [hv, and_self, if_true, decide_true]
          rcases damageOf d a t <;> rfl
        · rw [if_neg hv, decide_eq_false hv, Option.or_none]
    rw [this]
    rfl
  · have : ∀ (d : Dict (Dict F64)) (all : List Nat), FirstsOf (d.map (·.1)) all →
        FirstsOf ((vs.foldl addCell d).map (·.1)) (all ++ vs.map (·.1)) := by
      induction vs with
      | nil => intro d all h; simpa using h
      | cons v vs ih =>
        intro d all hd
        rw [List.foldl_cons, List.map_cons, List.append_cons]
        apply ih
        rw [addCell_keys]
        obtain ⟨h1, h2⟩ := hd
        have hp : (d.map (·.1)).Pairwise fun j k => (all ++ [v.1]).idxOf j < (all ++ [v.1]).idxOf k := by
          refine h2.imp_of_mem fun {j k} hj hk h => ?_
          rw [List.idxOf_append_of_mem ((h1 j).1 hj), List.idxOf_append_of_mem ((h1 k).1 hk)]
          exact h
        split
        · next hm =>
          refine ⟨fun k => ?_, hp⟩
          rw [List.mem_append, List.mem_singleton, h1 k]
          constructor
          · exact .inl
          · rintro (h | rfl)
            · exact h
            · exact (h1 _).1 hm
        · next hm =>
          refine ⟨fun k => ?_, ?_⟩
          · rw [List.mem_append, List.mem_append, h1 k]
          · rw [List.pairwise_append]
            refine ⟨hp, by simp, fun x hx y hy => ?_⟩
            rw [List.mem_singleton.1 hy, List.idxOf_append_of_mem ((h1 x).1 hx),
              List.idxOf_append_of_notMem (fun h => hm ((h1 _).2 h))]
            have := List.idxOf_lt_length_iff.2 ((h1 x).1 hx)
            omega
    have := this [] [] ⟨by simp, by simp⟩
    rwa [List.nil_append] at this

/-- The comment of the class, with a second cell for the same pair and other lines between. -/
def sampleCells : List (Str × Cell) :=
  [("rem material cells\n".toList, ⟨"1".toList, "18".toList, "1".toList⟩),
   ([], ⟨"1".toList, "40".toList, "0.25".toList⟩),
   ("MaterialManager.createMaterial 7\n\n".toList, ⟨"1".toList, "18".toList, "5".toList⟩),
   ([], ⟨"20".toList, "18".toList, "12.5".toList⟩)]

example : let d := parseSettings (settingsText sampleCells [])
    d.map (·.1) = [1, 20] ∧ damageOf d 1 18 = some (F64.ofRat false 1) ∧ damageOf d 20 18 = some (F64.ofRat false (25 / 2)) ∧
    damageOf d 1 40 = some (F64.ofRat false (1 / 4)) ∧ damageOf d 18 1 = none := by
  decide +kernel

/-- The sample meets the hypotheses. -/
example : ∃ vs, List.Forall₂ (fun p v => OtherLines p.1 ∧ Cell.Reads p.2 v) sampleCells vs ∧ OtherLines [] ∧
    vs.map (fun v => (v.1, v.2.1)) = [(1, 18), (1, 40), (1, 18), (20, 18)] := by
  have dig : ∀ s : Str, (s ≠ [] ∧ ∀ c ∈ s, '0' ≤ c ∧ c ≤ '9') → Digits s := fun _ h => h
  have w (a t n : Str) (ha : Digits a) (ht : Digits t) (hn : Digits n) :
      Cell.Reads ⟨a, t, n⟩ (digitsValue a, digitsValue t, F64.ofRat false (digitsValue n)) :=
    ⟨⟨ha, rfl⟩, ⟨ht, rfl⟩, _, .whole hn, rfl⟩
  have f (a t n m : Str) (ha : Digits a) (ht : Digits t) (hn : Digits n) (hm : Digits m) :
      Cell.Reads ⟨a, t, n ++ '.' :: m⟩
        (digitsValue a, digitsValue t, F64.ofRat false (digitsValue n + digitsValue m / 10 ^ m.length)) :=
    ⟨⟨ha, rfl⟩, ⟨ht, rfl⟩, _, .frac hn hm, rfl⟩
  have none : OtherLines [] := ⟨.inl rfl, by decide⟩
  refine ⟨_, .cons ⟨⟨.inr (by decide), by decide⟩, w _ _ _ (dig _ (by decide)) (dig _ (by decide)) (dig _ (by decide))⟩ <|
    .cons ⟨none, f _ _ "0".toList "25".toList (dig _ (by decide)) (dig _ (by decide)) (dig _ (by decide)) (dig _ (by decide))⟩ <|
    .cons ⟨⟨.inr (by decide), by decide⟩, w _ _ _ (dig _ (by decide)) (dig _ (by decide)) (dig _ (by decide))⟩ <|
    .cons ⟨none, f _ _ "12".toList "5".toList (dig _ (by decide)) (dig _ (by decide)) (dig _ (by decide)) (dig _ (by decide))⟩
    .nil, none, by decide⟩

end Bf2
