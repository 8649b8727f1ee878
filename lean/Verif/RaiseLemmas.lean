import Verif.RaiseSpec
import Verif.FrameLemmas
import Verif.EditFailLemmas

/-! # Lemmas for C146 -/

namespace Bf2

variable {F : Type}

/-! ## Loops -/

theorem trav_raisesOne {σ α : Type} {f : σ → α → σ × α × Option Err} {s : σ} {l : List α} {e : Err}
    (h : (trav f s l).2.2 = some e) : ∃ s a, (f s a).2.2 = some e := by
  induction l generalizing s with
  | nil => cases h
  | cons a l ih =>
    rw [trav] at h
    rcases hfa : f s a with ⟨s', a', _ | e'⟩
    · rw [hfa] at h
      exact ih h
    · rw [hfa] at h
      cases h
      exact ⟨s, a, by rw [hfa]⟩

theorem trav2_raises {σ α β : Type} {f : σ → α → β → σ × α × Option Err} {s : σ} {l : List α} {r : List β}
    {e : Err} (h : (trav2 f s l r).2.2 = some e) : e = .indexError ∨ ∃ s a b, (f s a b).2.2 = some e := by
  induction l generalizing s r with
  | nil => cases h
  | cons a l ih =>
    rcases r with _ | ⟨b, r⟩
    · cases h
      exact .inl rfl
    rw [trav2] at h
    rcases hfa : f s a b with ⟨s', a', _ | e'⟩
    · rw [hfa] at h
      exact ih h
    · rw [hfa] at h
      cases h
      exact .inr ⟨s, a, b, by rw [hfa]⟩

theorem travAt_raises {σ α : Type} {f : σ → α → σ × α × Option Err} {js : List Nat} {s : σ} {os : List α}
    {e : Err} (valid : ∀ j ∈ js, j < os.length) (h : (travAt f s os js).2.2 = some e) :
    ∃ s a, (f s a).2.2 = some e := by
  induction js generalizing s os with
  | nil => cases h
  | cons j js ih =>
    rw [List.forall_mem_cons] at valid
    rw [travAt, List.getElem?_eq_getElem valid.1] at h
    simp only at h
    rcases hfa : f s os[j] with ⟨s', a', _ | e'⟩
    · rw [hfa] at h
      exact ih (fun i hi => by rw [List.length_set]; exact valid.2 i hi) h
    · rw [hfa] at h
      cases h
      exact ⟨s, os[j], by rw [hfa]⟩

theorem travAt2_raises {σ α β : Type} {f : σ → α → β → σ × α × Option Err} {js : List Nat} {s : σ}
    {os : List α} {r : List β} {e : Err} (h : (travAt2 f s os js r).2.2 = some e) :
    e = .indexError ∨ ∃ s a b, (f s a b).2.2 = some e := by
  induction js generalizing s os r with
  | nil => cases h
  | cons j js ih =>
    rcases r with _ | ⟨b, r⟩
    · cases h
      exact .inl rfl
    rw [travAt2] at h
    rcases hj : os[j]? with _ | a
    · rw [hj] at h
      cases h
      exact .inl rfl
    rw [hj] at h
    simp only at h
    rcases hfa : f s a b with ⟨s', a', _ | e'⟩
    · rw [hfa] at h
      exact ih h
    · rw [hfa] at h
      cases h
      exact .inr ⟨s, a, b, by rw [hfa]⟩

/-! ## Vertices -/

theorem attrPos_format {vf : Int} (hf : vf ≠ 0) (a : VAttr) : attrPos vf a = .ok (intTrueDiv a.offset vf) := by
  rw [attrPos, if_neg hf]

theorem posOffset_format {vf : Int} (hf : vf ≠ 0) (attrs : List VAttr) : ∃ o, posOffset vf attrs = .ok o := by
  induction attrs with
  | nil => exact ⟨none, rfl⟩
  | cons a as ih =>
    rw [posOffset, attrPos_format hf]
    split
    · exact ⟨_, rfl⟩
    · exact ih

theorem declLen_errors {t : Int} {e : Err} (h : declLen t = .error e) : e = .valueError := by
  unfold declLen at h
  repeat' split at h
  all_goals cases h
  rfl

section vertices
variable [FArith F]

theorem translate_raises {m : Mesh F} (hf : m.vertformat ≠ 0) {d : List F} {e : Err}
    (h : (translate m d).2 = some e) : e = .valueError ∨ e = .unboundLocalError ∨ e = .indexError := by
  unfold translate at h
  rcases he : editVertices (translateVertex m d) m with e' | l
  · rw [he] at h
    cases h
    rcases edit_errors he with h | ⟨v, hv⟩
    · exact .inl h
    · right
      unfold translateVertex at hv
      obtain ⟨o, ho⟩ := posOffset_format hf m.vattrs
      rw [ho] at hv
      rcases o with _ | o
      · simp only at hv
        split at hv <;> cases hv
        exact .inl rfl
      · exact .inr (addAll_errors hv)
  · rw [he] at h
    cases h

theorem rotate_raises [Libm F] {m : Mesh F} (hf : m.vertformat ≠ 0) {rotation : List F} {e : Err}
    (h : (rotate m rotation).2 = some e) : e = .valueError ∨ e = .indexError := by
  unfold rotate at h
  split at h
  · rename_i y p r rest
    dsimp only at h
    rcases he : editVertices (rotateVertex m ⟨Libm.radians y, Libm.radians p, Libm.radians r⟩) m with e' | l
    · rw [he] at h
      cases h
      rcases edit_errors he with h | ⟨v, hv⟩
      · exact .inl h
      · obtain ⟨t, a, h⟩ := foldE_errors hv
        rw [rotateAttr, attrPos_format hf] at h
        simp only at h
        repeat' split at h
        all_goals cases h
        · rename_i hd
          exact .inl (declLen_errors hd)
        · rename_i hd
          rcases rotData_errors hd with ⟨h, -⟩ | h
          · exact .inr h
          · exact .inl h
    · rw [he] at h
      cases h
  · cases h
    exact .inr rfl

theorem boundVertex_raises {m : Mesh F} (hf : m.vertformat ≠ 0) {mat : Mat F} {s : Box F × Box F} {i : Nat}
    {e : Err} (h : boundVertex m mat s i = .error e) :
    e = .valueError ∨ e = .attributeError ∨ e = .indexError := by
  unfold boundVertex at h
  split at h
  · rename_i hv
    cases h
    exact .inl (vertexSize_error _ hv)
  · dsimp only at h
    split at h
    · rename_i he
      cases h
      obtain ⟨t, a, ha⟩ := foldE_errors he
      left
      rw [vertexAttrs, attrPos_format hf] at ha
      simp only at ha
      repeat' split at ha
      all_goals cases ha
      · rename_i hd
        exact declLen_errors hd
      · rfl
    · split at h
      · split at h
        · cases h
          exact .inr (.inl rfl)
        · split at h
          · rename_i ht
            cases h
            unfold toVec3 at ht
            split at ht <;> cases ht
            exact .inr (.inr rfl)
          · cases h
      · cases h

theorem boundGeom_raises {m : Mesh F} (hf : m.vertformat ≠ 0) {u : Unit} {g : Geom F} {e : Err}
    (h : (boundGeom m u g).2.2 = some e) : e = .valueError ∨ e = .attributeError ∨ e = .indexError := by
  obtain ⟨_, l, hl⟩ := trav_raisesOne (f := boundLod m) (s := ()) (l := g.lods) h
  unfold boundLod at hl
  have : (trav (boundMat m) Box.zero l.materials).2.2 = some e := by
    rcases ht : trav (boundMat m) Box.zero l.materials with ⟨b, ms, _ | e'⟩
    · rw [ht] at hl
      cases hl
    · rw [ht] at hl
      exact hl
  obtain ⟨b, a, ha⟩ := trav_raisesOne this
  unfold boundMat at ha
  split at ha
  · rename_i he
    cases ha
    obtain ⟨t, i, hi⟩ := foldE_errors he
    exact boundVertex_raises hf hi
  · split at ha <;> cases ha

end vertices

/-! ## Reorder and merge -/

theorem reorderGeom_raises {vs : Nat} {m : Mesh F} {s : Arrays F} {g : Geom F} {e : Err}
    (h : (reorderGeom vs m s g).2.2 = some e) : e = .typeError ∨ e = .zeroDivisionError := by
  obtain ⟨_, l, hl⟩ := trav_raisesOne (f := reorderLod vs m) (s := s) (l := g.lods) h
  obtain ⟨t, a, ha⟩ := trav_raisesOne (f := reorderMat vs m) (l := l.materials) hl
  unfold reorderMat at ha
  dsimp only at ha
  split at ha
  · cases ha
    exact .inl rfl
  · split at ha <;> cases ha
    exact .inr rfl

theorem reorderAt_raises {vs : Nat} {m : Mesh F} {slots : List Nat} {os : List (Geom F)} {s : Arrays F}
    {ids : List Int} {e : Err} (h : (reorderAt vs m slots os s ids).err = some e) :
    e = .indexError ∨ e = .typeError ∨ e = .zeroDivisionError := by
  induction ids generalizing os s with
  | nil => cases h
  | cons id ids ih =>
    rw [reorderAt] at h
    split at h
    · cases h
      exact .inl rfl
    · split at h
      · cases h
        exact .inl rfl
      · split at h
        · rename_i hr
          cases h
          exact .inr (reorderGeom_raises (by rw [hr]))
        · exact ih h

theorem shiftIndex_raises {index : OneOrMany Int} {istart vnum : Int} {i : Nat} {e : Err}
    (h : shiftIndex index istart vnum i = .error e) :
    e = .typeError ∨ e = .indexError ∨ e = .overflowError := by
  unfold shiftIndex at h
  repeat' split at h
  all_goals cases h
  · exact .inl rfl
  · exact .inr (.inl rfl)
  · exact .inr (.inr rfl)

theorem mergeMat_raises {m o : Mesh F} {s : MergeSt F} {a b : Mat F} {e : Err}
    (h : (mergeMat m o s a b).2.2 = some e) :
    e = .typeError ∨ e = .valueError ∨ e = .indexError ∨ e = .overflowError := by
  unfold mergeMat at h
  repeat' split at h
  all_goals cases h
  · rename_i hv
    exact .inr (.inl (vertexSize_error _ hv))
  · exact .inl rfl
  · rename_i hv
    exact .inr (.inl (vertexSize_error _ hv))
  · rename_i hv
    obtain ⟨i, -, hi⟩ := flatMapE_errors hv
    rcases shiftIndex_raises hi with h | h
    · exact .inl h
    · exact .inr (.inr h)

theorem mergeMatSelf_raises {m : Mesh F} {s : MergeSt F} {a : Mat F} {e : Err}
    (h : (mergeMatSelf m s a).2.2 = some e) :
    e = .typeError ∨ e = .valueError ∨ e = .indexError ∨ e = .overflowError := by
  unfold mergeMatSelf at h
  repeat' split at h
  all_goals cases h
  · rename_i hv
    exact .inr (.inl (vertexSize_error _ hv))
  · exact .inl rfl
  · rename_i hv
    obtain ⟨i, -, hi⟩ := flatMapE_errors hv
    rcases shiftIndex_raises hi with h | h
    · exact .inl h
    · exact .inr (.inr h)

theorem mergeGeom_raises {m o : Mesh F} {s : MergeSt F} {g og : Geom F} {e : Err}
    (h : (mergeGeom m o s g og).2.2 = some e) :
    e = .typeError ∨ e = .valueError ∨ e = .indexError ∨ e = .overflowError := by
  rcases trav2_raises (f := mergeLod m o) (s := s) (l := g.lods) (r := og.lods) h with h | ⟨_, l, ol, hl⟩
  · exact .inr (.inr (.inl h))
  rcases trav2_raises (f := mergeMat m o) (l := l.materials) (r := ol.materials) hl with h | ⟨t, a, b, ha⟩
  · exact .inr (.inr (.inl h))
  exact mergeMat_raises ha

theorem mergeGeomSelf_raises {m : Mesh F} {s : MergeSt F} {g : Geom F} {e : Err}
    (h : (mergeGeomSelf m s g).2.2 = some e) :
    e = .typeError ∨ e = .valueError ∨ e = .indexError ∨ e = .overflowError := by
  obtain ⟨_, l, hl⟩ := trav_raisesOne (f := mergeLodSelf m) (s := s) (l := g.lods) h
  obtain ⟨t, a, ha⟩ := trav_raisesOne (f := mergeMatSelf m) (l := l.materials) hl
  exact mergeMatSelf_raises ha

theorem all2_raises {α β : Type} {f : α → β → Except Err Bool} {l : List α} {r : List β} {e : Err}
    (h : all2 f l r = .error e) : e = .indexError ∨ ∃ a b, f a b = .error e := by
  induction l generalizing r with
  | nil => cases h
  | cons a l ih =>
    rcases r with _ | ⟨b, r⟩
    · cases h
      exact .inl rfl
    rw [all2] at h
    split at h
    · rename_i hf
      cases h
      exact .inr ⟨a, b, hf⟩
    · cases h
    · exact ih h

theorem canMerge_raises {m o : Mesh F} {e : Err} (h : canMerge m o = .error e) :
    e = .typeError ∨ e = .valueError ∨ e = .indexError := by
  have mat : ∀ {a b : Mat F}, canMergeMat a b = .error e → e = .typeError := by
    intro a b h
    unfold canMergeMat at h
    repeat' split at h
    all_goals cases h
    rfl
  have lod : ∀ {a b : Lod F}, canMergeLod a b = .error e → e = .typeError ∨ e = .indexError := by
    intro a b h
    unfold canMergeLod at h
    split at h
    · cases h
    · rcases all2_raises h with h | ⟨a, b, h⟩
      · exact .inr h
      · exact .inl (mat h)
  have geom : ∀ {a b : Geom F}, canMergeGeom a b = .error e → e = .typeError ∨ e = .indexError := by
    intro a b h
    unfold canMergeGeom at h
    split at h
    · cases h
    · rcases all2_raises h with h | ⟨a, b, h⟩
      · exact .inr h
      · exact lod h
  have attr : ∀ {a b : VAttr}, canMergeAttr a b = .error e → e = .valueError := by
    intro a b h
    unfold canMergeAttr at h
    repeat' split at h
    all_goals cases h
    · rename_i hd
      exact declLen_errors hd
    · rfl
  unfold canMerge at h
  split at h
  · cases h
  · split at h
    · rename_i hg
      cases h
      rcases all2_raises hg with h | ⟨a, b, h⟩
      · exact .inr (.inr h)
      · rcases geom h with h | h
        · exact .inl h
        · exact .inr (.inr h)
    · cases h
    · split at h
      · cases h
      · rcases all2_raises h with h | ⟨a, b, h⟩
        · exact .inr (.inr h)
        · exact .inr (.inl (attr h))

/-! ## A call -/

theorem outcome_raises {α : Type} {r : α × Option Err} {e : Err} (h : (outcome (F := F) r).2 = .error e) :
    r.2 = some e := by
  rcases r with ⟨t, _ | e'⟩ <;> cases h
  rfl

theorem outcomePoint_raises {α : Type} {r : α × Except Err (Vec3 F)} {e : Err}
    (h : (outcomePoint r).2 = .error e) : r.2 = .error e := by
  rcases r with ⟨t, e' | _⟩ <;> cases h
  rfl

theorem outcomeMerge_raises {α : Type} {r : α × Except Err MergeRet} {e : Err}
    (h : (outcomeMerge (F := F) r).2 = .error e) : r.2 = .error e := by
  rcases r with ⟨t, e' | _ | _⟩ <;> cases h
  rfl

theorem sharedFinish_raises {s : Shared F} {os : List (Geom F)} {st : MergeSt F} {e : Err}
    (h : (s.mergeFinish os st).2 = .error e) : e = .typeError := by
  unfold Shared.mergeFinish mergeFinish at h
  rcases hi : s.mesh.index with v | ix
  · rw [hi] at h
    cases h
    rfl
  · rw [hi] at h
    cases h

theorem runShared_raises [FArith F] [Libm F] {s : Shared F} (valid : s.Valid) (format : s.mesh.vertformat ≠ 0)
    {c : EditCall F} {e : Err} (h : (c.runShared s).2 = .error e) : e ∈ c.mayRaise := by
  have up : ∀ {e}, s.updateBoundaries.2 = some e → e = .valueError ∨ e = .attributeError ∨ e = .indexError := by
    intro e h
    obtain ⟨_, g, hg⟩ := travAt_raises (f := boundGeom s.mesh) valid h
    exact boundGeom_raises format hg
  cases c with
  | translate d =>
    have h : (translate s.look d).2 = some e := outcome_raises (r := s.translate d) h
    rcases translate_raises (m := s.look) format h with rfl | rfl | rfl <;> simp [EditCall.mayRaise]
  | rotate d =>
    have h : (rotate s.look d).2 = some e := outcome_raises (r := s.rotate d) h
    rcases rotate_raises (m := s.look) format h with rfl | rfl <;> simp [EditCall.mayRaise]
  | update => rcases up (outcome_raises h) with rfl | rfl | rfl <;> simp [EditCall.mayRaise]
  | center g l u =>
    have h : (s.getLodCenterOffset g l u).2 = .error e := outcomePoint_raises h
    unfold Shared.getLodCenterOffset at h
    rcases hp : lodPos s.look g l with _ | p <;> rw [hp] at h
    · cases h
      cases u <;> simp [EditCall.mayRaise]
    simp only at h
    cases u with
    | false =>
      simp only [Bool.false_eq_true, if_false] at h
      rcases hl : s.lodAt p with _ | l
      · rw [hl] at h
        cases h
        simp [EditCall.mayRaise]
      · rw [hl] at h
        cases h
    | true =>
      simp only [if_true] at h
      rcases hs : s.updateBoundaries with ⟨s', _ | e'⟩
      · rw [hs] at h
        simp only at h
        rcases hl : s'.lodAt p with _ | l
        · rw [hl] at h
          cases h
          simp [EditCall.mayRaise]
        · rw [hl] at h
          cases h
      · rw [hs] at h
        cases h
        rcases up (by rw [hs]) with rfl | rfl | rfl <;> simp [EditCall.mayRaise]
  | reorder order =>
    have h : (s.changeGeomsOrder order).2 = some e := outcome_raises h
    unfold Shared.changeGeomsOrder at h
    split at h
    · cases h
      simp [EditCall.mayRaise]
    · split at h
      · rename_i hv
        cases h
        rw [vertexSize_error _ hv]
        simp [EditCall.mayRaise]
      · rename_i vs _
        rcases hr : reorderAt vs s.mesh s.slots s.mesh.geoms ⟨[], []⟩ order with ⟨os, a, js, _ | e'⟩
        · rw [hr] at h
          cases h
        · rw [hr] at h
          cases h
          rcases reorderAt_raises (by rw [hr]) with rfl | rfl | rfl <;> simp [EditCall.mayRaise]
  | merge o =>
    have h : (s.merge o).2 = .error e := outcomeMerge_raises h
    unfold Shared.merge at h
    split at h
    · rename_i hc
      cases h
      rcases canMerge_raises hc with rfl | rfl | rfl <;> simp [EditCall.mayRaise]
    · cases h
    · split at h
      · rename_i hr
        cases h
        rcases travAt2_raises (by rw [hr]) with rfl | ⟨_, g, og, hg⟩
        · simp [EditCall.mayRaise]
        · rcases mergeGeom_raises hg with rfl | rfl | rfl | rfl <;> simp [EditCall.mayRaise]
      · rw [sharedFinish_raises h]
        simp [EditCall.mayRaise]
  | mergeSelf =>
    have h : s.mergeSelf.2 = .error e := outcomeMerge_raises h
    unfold Shared.mergeSelf at h
    split at h
    · rename_i hc
      cases h
      rcases canMerge_raises hc with rfl | rfl | rfl <;> simp [EditCall.mayRaise]
    · cases h
    · split at h
      · rename_i hr
        cases h
        obtain ⟨_, g, hg⟩ := travAt_raises valid (by rw [hr])
        rcases mergeGeomSelf_raises hg with rfl | rfl | rfl | rfl <;> simp [EditCall.mayRaise]
      · rw [sharedFinish_raises h]
        simp [EditCall.mayRaise]

end Bf2
