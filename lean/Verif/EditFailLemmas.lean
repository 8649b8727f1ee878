import Verif.RotateLemmas
import Verif.EditFailSpec

/-! Lemmas for C142: when `translate` and `rotate` raise. -/

namespace Bf2

variable {F : Type}

/-- Nothing to edit. -/
theorem edit_none {vs : Nat} {m : Mesh F} (inside : Inside vs m) {edit : List F → Except Err (List F)}
    (h : ∀ a ∈ m.mats, a.vnum = 0) : editVertices edit m = .ok [] := by
  rw [editVertices_flat, flatMapE_ok _ (fun _ => [])]
  · simp
  · intro a ha
    rw [editMat, (vertexSize_iff _ _).2 inside.size]
    simp only
    rw [if_neg (Nat.pos_iff_ne_zero.1 inside.pos), matVertices_eq vs m a (inside.verts a ha), vertexData, h a ha,
      block]
    simp [chunks_nil inside.pos, flatMapE]

theorem full_chunks {vs : Nat} {m : Mesh F} (inside : Inside vs m) {a : Mat F} (ha : a ∈ m.mats) :
    ∀ v ∈ chunks vs (matVertices vs m.vertices a), v.length = vs := by
  intro v hv
  rw [matVertices_eq vs m a (inside.verts a ha)] at hv
  exact chunks_length _ _ hv _ (vertexData_length vs m a (inside.verts a ha))

/-- Every vertex is edited. -/
theorem edit_ok {vs : Nat} {m : Mesh F} (inside : Inside vs m) {edit : List F → Except Err (List F)}
    (h : ∀ v : List F, v.length = vs → ∃ w, edit v = .ok w) : ∃ l, editVertices edit m = .ok l := by
  have step : ∀ (l : List (List F)), (∀ v ∈ l, v.length = vs) → ∃ r, flatMapE edit l = .ok r := by
    intro l hl
    induction l with
    | nil => exact ⟨_, rfl⟩
    | cons a as ih =>
      obtain ⟨w, hw⟩ := h a (hl a (by simp))
      obtain ⟨r, hr⟩ := ih fun v hv => hl v (by simp [hv])
      exact ⟨w ++ r, by rw [flatMapE, hw]; simp only; rw [hr]⟩
  have mats : ∀ (l : List (Mat F)), (∀ a ∈ l, a ∈ m.mats) → ∃ r, flatMapE (editMat edit m) l = .ok r := by
    intro l hl
    induction l with
    | nil => exact ⟨_, rfl⟩
    | cons a as ih =>
      obtain ⟨w, hw⟩ := step _ (full_chunks inside (hl a (by simp)))
      obtain ⟨r, hr⟩ := ih fun v hv => hl v (by simp [hv])
      refine ⟨w ++ r, ?_⟩
      rw [flatMapE, editMat, (vertexSize_iff _ _).2 inside.size]
      simp only
      rw [if_neg (Nat.pos_iff_ne_zero.1 inside.pos), hw]
      simp only
      rw [hr]
  rw [editVertices_flat]
  exact mats _ fun _ h => h

/-- Every vertex raises. -/
theorem edit_error {vs : Nat} {m : Mesh F} (inside : Inside vs m) {edit : List F → Except Err (List F)}
    {e : Err} (h : ∀ v : List F, v.length = vs → edit v = .error e) (hv : ∃ a ∈ m.mats, 0 < a.vnum) :
    editVertices edit m = .error e := by
  have mat : ∀ a ∈ m.mats, (0 < a.vnum → editMat edit m a = .error e) ∧
      (a.vnum = 0 → editMat edit m a = .ok []) := by
    intro a ha
    have hl := vertexData_length vs m a (inside.verts a ha)
    have hf := full_chunks inside ha
    rw [editMat, (vertexSize_iff _ _).2 inside.size]
    simp only
    rw [if_neg (Nat.pos_iff_ne_zero.1 inside.pos)]
    rw [matVertices_eq vs m a (inside.verts a ha)] at hf ⊢
    constructor
    · intro h0
      refine flatMapE_error (fun v hv => .inr (h v (hf v hv))) ?_
      have hne : vertexData vs m a ≠ [] := by
        intro hn
        rw [hn] at hl
        have := Nat.mul_pos (show 0 < a.vnum.toNat by omega) inside.pos
        simp at hl
        rcases hl with hl | hl
        · omega
        · have := inside.pos; omega
      obtain ⟨v, hv⟩ := List.exists_mem_of_ne_nil _ (chunks_ne_nil inside.pos _ hne)
      exact ⟨v, hv, h v (hf v hv)⟩
    · intro h0
      rw [vertexData, h0, block]
      simp [chunks_nil inside.pos, flatMapE]
  rw [editVertices_flat]
  refine flatMapE_error (fun a ha => ?_) ?_
  · have := (inside.verts a ha).2.1
    rcases Int.lt_or_eq_of_le this with h | h
    · exact .inr ((mat a ha).1 h)
    · exact .inl ⟨_, (mat a ha).2 h.symm⟩
  · obtain ⟨a, ha, h0⟩ := hv
    exact ⟨a, ha, (mat a ha).1 h0⟩

/-! ## translate -/

theorem first_position {attrs : List VAttr} (h : ¬ ∀ b ∈ attrs, ¬ (b.usage = 0 ∧ b.flag ≠ 255)) :
    ∃ p, FirstPosition attrs p := by
  induction attrs with
  | nil => simp at h
  | cons a as ih =>
    by_cases ha : a.usage = 0 ∧ a.flag ≠ 255
    · exact ⟨a, [], as, rfl, ha, by simp⟩
    · obtain ⟨p, pre, post, e, h1, h2⟩ := ih fun hn => h fun b hb => by
        rcases List.mem_cons.1 hb with rfl | hb
        · exact ha
        · exact hn b hb
      refine ⟨p, a :: pre, post, by rw [e]; rfl, h1, fun b hb => ?_⟩
      rcases List.mem_cons.1 hb with rfl | hb
      · exact ha
      · exact h2 b hb

theorem posOffset_zero {attrs : List VAttr} {p : VAttr} (h : FirstPosition attrs p) :
    posOffset 0 attrs = .error .zeroDivisionError := by
  obtain ⟨pre, post, rfl, ha, hpre⟩ := h
  induction pre with
  | nil => rw [List.nil_append, posOffset, if_pos ha, attrPos, if_pos rfl]
  | cons b pre ih =>
    rw [List.cons_append, posOffset, if_neg (hpre b (by simp))]
    exact ih fun c hc => hpre c (by simp [hc])

variable [FArith F]

theorem addAll_errors {o : Int} {k : Nat} {d v : List F} {e : Err} (h : addAll o k d v = .error e) :
    e = .indexError := by
  induction d generalizing k v with
  | nil => cases h
  | cons t d ih =>
    rw [addAll, addAt] at h
    rcases hp : pyPos v.length (o + k) with _ | j
    · rw [hp] at h
      cases h
      rfl
    · rw [hp] at h
      exact ih h

omit [FArith F] in
theorem posOffset_errors {vf : Int} {attrs : List VAttr} {e : Err} (h : posOffset vf attrs = .error e) :
    e = .zeroDivisionError := by
  induction attrs with
  | nil => cases h
  | cons a as ih =>
    rw [posOffset] at h
    split at h
    · split at h
      · next hh =>
        cases h
        rw [attrPos] at hh
        split at hh
        · cases hh; rfl
        · cases hh
      · cases h
    · exact ih h

theorem translateVertex_errors {m : Mesh F} {d v : List F} {e : Err} (h : translateVertex m d v = .error e) :
    e = .zeroDivisionError ∨ e = .unboundLocalError ∨ e = .indexError := by
  unfold translateVertex at h
  split at h
  · next hh => cases h; exact .inl (posOffset_errors hh)
  · split at h
    · cases h
    · cases h; exact .inr (.inl rfl)
  · exact .inr (.inr (addAll_errors h))

omit [FArith F] in
theorem flatMapE_errors {α β : Type} {f : α → Except Err (List β)} {l : List α} {e : Err}
    (h : flatMapE f l = .error e) : ∃ a ∈ l, f a = .error e := by
  induction l with
  | nil => cases h
  | cons a as ih =>
    rw [flatMapE] at h
    split at h
    · next hh => cases h; exact ⟨a, by simp, hh⟩
    · split at h
      · next hh =>
        cases h
        obtain ⟨b, hb, hbe⟩ := ih hh
        exact ⟨b, by simp [hb], hbe⟩
      · cases h

omit [FArith F] in
/-- Only an unknown type, a vertex without floats, or a vertex raise. -/
theorem edit_errors {m : Mesh F} {edit : List F → Except Err (List F)} {e : Err}
    (h : editVertices edit m = .error e) : e = .valueError ∨ ∃ v, edit v = .error e := by
  rw [editVertices_flat] at h
  obtain ⟨a, -, ha⟩ := flatMapE_errors h
  unfold editMat at ha
  split at ha
  · next hh => cases ha; exact .inl (vertexSize_error _ hh)
  · split at ha
    · cases ha; exact .inl rfl
    · obtain ⟨v, -, hv⟩ := flatMapE_errors ha
      exact .inr ⟨v, hv⟩

/-! ## rotate -/

variable [Libm F]

omit [FArith F] in
theorem anglesFine_trig {y p r : F} (h : AnglesFine y p r) :
    ∃ cy sy cp sp cr sr, Trig (⟨Libm.radians y, Libm.radians p, Libm.radians r⟩ : Angles F) cy sy cp sp cr sr := by
  obtain ⟨h1, h2⟩ := h y (by simp)
  obtain ⟨h3, h4⟩ := h p (by simp)
  obtain ⟨h5, h6⟩ := h r (by simp)
  obtain ⟨cy, h1⟩ := Option.isSome_iff_exists.1 h1
  obtain ⟨sy, h2⟩ := Option.isSome_iff_exists.1 h2
  obtain ⟨cp, h3⟩ := Option.isSome_iff_exists.1 h3
  obtain ⟨sp, h4⟩ := Option.isSome_iff_exists.1 h4
  obtain ⟨cr, h5⟩ := Option.isSome_iff_exists.1 h5
  obtain ⟨sr, h6⟩ := Option.isSome_iff_exists.1 h6
  exact ⟨cy, sy, cp, sp, cr, sr, ⟨h1, h2⟩, ⟨h3, h4⟩, ⟨h5, h6⟩⟩

omit [FArith F] in
theorem trig_anglesFine {y p r cy sy cp sp cr sr : F}
    (h : Trig (⟨Libm.radians y, Libm.radians p, Libm.radians r⟩ : Angles F) cy sy cp sp cr sr) :
    AnglesFine y p r := by
  intro a ha
  simp only [List.mem_cons, List.not_mem_nil, or_false] at ha
  rcases ha with rfl | rfl | rfl
  · exact ⟨by rw [h.yaw.1]; rfl, by rw [h.yaw.2]; rfl⟩
  · exact ⟨by rw [h.pitch.1]; rfl, by rw [h.pitch.2]; rfl⟩
  · exact ⟨by rw [h.roll.1]; rfl, by rw [h.roll.2]; rfl⟩

theorem rotData_errors {r : Angles F} {l : List F} {e : Err} (h : rotData r l = .error e) :
    (e = .indexError ∧ l.length < 3) ∨ e = .valueError := by
  have trig_errors : ∀ (a : F) e, trig a = .error e → e = .valueError := by
    intro a e h
    unfold trig at h
    split at h
    · cases h
    · cases h; rfl
  unfold rotData at h
  split at h
  · next hh =>
    cases h
    unfold toVec3 at hh
    split at hh
    · cases hh
    · next hn =>
      cases hh
      refine .inl ⟨rfl, ?_⟩
      rcases l with _ | ⟨x, _ | ⟨y, _ | ⟨z, l⟩⟩⟩
      · simp
      · simp
      · simp
      · exact absurd rfl (hn x y z l)
  · right
    split at h
    · next hh => cases h; exact trig_errors _ _ hh
    · split at h
      · next hh => cases h; exact trig_errors _ _ hh
      · split at h
        · next hh => cases h; exact trig_errors _ _ hh
        · cases h

/-- A vector attribute, done or not. -/
theorem rotateAttr_vector {vf : Int} {r : Angles F} {v : List F} {a : VAttr} {o k : Nat}
    (ha : VectorAttr a) (ho : StartsAt vf a o) (hk : typeFloats a.vartype = some k) :
    (¬ (3 ≤ k ∧ o + 3 ≤ v.length) → rotateAttr vf r v a = .error .indexError) ∧
    (3 ≤ k → o + 3 ≤ v.length → (∃ cy sy cp sp cr sr, Trig r cy sy cp sp cr sr) →
      ∃ w, rotateAttr vf r v a = .ok w ∧ w.length = v.length - min k (v.length - o) + 3) ∧
    (3 ≤ k → o + 3 ≤ v.length → ¬ (∃ cy sy cp sp cr sr, Trig r cy sy cp sp cr sr) →
      rotateAttr vf r v a = .error .valueError) := by
  have hl : (pySlice v (o : Int) ((o : Int) + (k : Nat))).length = min (o + k) v.length - min o v.length := by
    rw [pySlice_length, ← Int.natCast_add, clamp_nat, clamp_nat]
  rw [rotateAttr, if_neg ha.1, if_pos ((isVector_iff _).2 ha.2), attrPos_startsAt ho]
  simp only
  rw [declLen_eq, hk]
  simp only
  refine ⟨fun hn => ?_, fun h3 hf ht => ?_, fun h3 hf ht => ?_⟩
  · rcases hs : pySlice v (o : Int) ((o : Int) + (k : Nat)) with _ | ⟨x, _ | ⟨y, _ | ⟨z, l⟩⟩⟩
    · rfl
    · rfl
    · rfl
    · rw [hs] at hl
      simp only [List.length_cons] at hl
      omega
  · obtain ⟨cy, sy, cp, sp, cr, sr, ht⟩ := ht
    rcases hs : pySlice v (o : Int) ((o : Int) + (k : Nat)) with _ | ⟨x, _ | ⟨y, _ | ⟨z, l⟩⟩⟩
    · rw [hs] at hl; simp at hl; omega
    · rw [hs] at hl; simp at hl; omega
    · rw [hs] at hl; simp at hl; omega
    · rw [rotData_eq ht]
      refine ⟨_, rfl, ?_⟩
      rw [pySliceSet_length, ← Int.natCast_add, clamp_nat, clamp_nat]
      simp only [Vec3.toList, List.length_cons, List.length_nil]
      omega
  · rcases hd : rotData r (pySlice v (o : Int) ((o : Int) + (k : Nat))) with e | w
    · rcases rotData_errors hd with ⟨rfl, h⟩ | rfl
      · rw [hl] at h
        omega
      · rfl
    · exact absurd (rotData_ok hd).2 ht

theorem rotateAttr_errors {vf : Int} {r : Angles F} {v : List F} {a : VAttr} {e : Err}
    (h : rotateAttr vf r v a = .error e) :
    e = .zeroDivisionError ∨ e = .valueError ∨ e = .indexError := by
  rw [rotateAttr] at h
  split at h
  · cases h
  · split at h
    · split at h
      · next hh =>
        cases h
        rw [attrPos] at hh
        split at hh
        · cases hh; exact .inl rfl
        · cases hh
      · split at h
        · next hh =>
          cases h
          rw [declLen_eq] at hh
          split at hh
          · cases hh
          · cases hh; exact .inr (.inl rfl)
        · split at h
          · next hh =>
            cases h
            rcases rotData_errors hh with ⟨rfl, -⟩ | rfl
            · exact .inr (.inr rfl)
            · exact .inr (.inl rfl)
          · cases h
    · cases h

theorem foldE_errors {σ α : Type} {f : σ → α → Except Err σ} {s : σ} {l : List α} {e : Err}
    (h : foldE f s l = .error e) : ∃ t a, f t a = .error e := by
  induction l generalizing s with
  | nil => cases h
  | cons a as ih =>
    rw [foldE] at h
    split at h
    · next hh => cases h; exact ⟨s, a, hh⟩
    · exact ih h

/-- A vertex that can be turned is turned. -/
theorem turn_fits {vf : Int} {r : Angles F} {attrs : List VAttr} {size : Nat} (h : TurnFits vf size attrs)
    (ht : (∃ a ∈ attrs, VectorAttr a) → ∃ cy sy cp sp cr sr, Trig r cy sy cp sp cr sr) (v : List F)
    (hv : v.length = size) : ∃ w, foldE (rotateAttr vf r) v attrs = .ok w := by
  induction h generalizing v with
  | nil => exact ⟨v, rfl⟩
  | other ha _ ih =>
    obtain ⟨w, hw⟩ := ih (fun ⟨b, hb, hbv⟩ => ht ⟨b, by simp [hb], hbv⟩) v hv
    exact ⟨w, by rw [foldE, rotateAttr_skip ha]; exact hw⟩
  | vector ha ho hk h3 hf _ ih =>
    have ht' := ht ⟨_, List.mem_cons_self, ha⟩
    obtain ⟨w, hw, hl⟩ := (rotateAttr_vector (r := r) (v := v) ha ho hk).2.1 h3 (by omega) ht'
    obtain ⟨w', hw'⟩ := ih (fun _ => ht') w (by rw [hl, hv])
    exact ⟨w', by rw [foldE, hw]; exact hw'⟩

/-- A vertex that cannot be turned raises, and what depends on its length only. -/
theorem turn_misfit {vf : Int} {r : Angles F} {attrs : List VAttr} {size : Nat}
    (hs : ∀ a ∈ attrs, VectorAttr a → vf ≠ 0 → ∃ o, StartsAt vf a o)
    (h : ¬ (TurnFits vf size attrs ∧
      ((∃ a ∈ attrs, VectorAttr a) → ∃ cy sy cp sp cr sr, Trig r cy sy cp sp cr sr))) :
    ∃ e, ∀ v : List F, v.length = size → foldE (rotateAttr vf r) v attrs = .error e := by
  induction attrs generalizing size with
  | nil => exact absurd ⟨.nil, by simp⟩ h
  | cons a as ih =>
    by_cases ha : VectorAttr a
    · by_cases h0 : vf = 0
      · refine ⟨.zeroDivisionError, fun v _ => ?_⟩
        rw [foldE, rotateAttr, if_neg ha.1, if_pos ((isVector_iff _).2 ha.2), attrPos, if_pos h0]
      · obtain ⟨o, ho⟩ := hs a (by simp) ha h0
        rcases hk : typeFloats a.vartype with _ | k
        · refine ⟨.valueError, fun v _ => ?_⟩
          rw [foldE, rotateAttr, if_neg ha.1, if_pos ((isVector_iff _).2 ha.2), attrPos_startsAt ho]
          simp only
          rw [declLen_eq, hk]
        · by_cases hf : 3 ≤ k ∧ o + 3 ≤ size
          · by_cases ht : ∃ cy sy cp sp cr sr, Trig r cy sy cp sp cr sr
            · obtain ⟨e, he⟩ := ih (size := size - min k (size - o) + 3)
                (fun b hb => hs b (by simp [hb]))
                (fun hn => h ⟨.vector ha ho hk hf.1 hf.2 hn.1, fun _ => ht⟩)
              refine ⟨e, fun v hv => ?_⟩
              obtain ⟨w, hw, hl⟩ := (rotateAttr_vector (r := r) (v := v) ha ho hk).2.1 hf.1 (by omega) ht
              rw [foldE, hw]
              exact he w (by rw [hl, hv])
            · refine ⟨.valueError, fun v hv => ?_⟩
              rw [foldE, (rotateAttr_vector (r := r) (v := v) ha ho hk).2.2 hf.1 (by omega) ht]
          · refine ⟨.indexError, fun v hv => ?_⟩
            rw [foldE, (rotateAttr_vector (r := r) (v := v) ha ho hk).1 (by rw [hv]; exact hf)]
    · obtain ⟨e, he⟩ := ih (size := size) (fun b hb => hs b (by simp [hb]))
        (fun hn => h ⟨.other ha hn.1, fun ⟨b, hb, hbv⟩ => hn.2 (by
          rcases List.mem_cons.1 hb with rfl | hb
          · exact absurd hbv ha
          · exact ⟨b, hb, hbv⟩)⟩)
      refine ⟨e, fun v hv => ?_⟩
      rw [foldE, rotateAttr_skip ha]
      exact he v hv

end Bf2
