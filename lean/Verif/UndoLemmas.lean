import Verif.UndoSpec
import Verif.DriftLemmas
import Verif.Props.Algebra
import Verif.Props.Rotate
import Verif.Props.Translate
import Verif.OldDriftLemmas

/-! # Undoing exact edits -/

namespace Bf2

noncomputable section

theorem exactAll_append (pos : Bool) (ss ts : List Act) (X : Fin 3 → ℝ) :
    exactAll pos (ss ++ ts) X = exactAll pos ts (exactAll pos ss X) := List.foldl_append

theorem undoAll_append (ss : List Act) (s : Act) : undoAll (ss ++ [s]) = s.undo ++ undoAll ss := by
  unfold undoAll
  rw [List.reverse_append, List.reverse_singleton, List.singleton_append, List.flatMap_cons]

theorem zero_value : F64.zero.value = 0 := by decide +kernel

theorem deg_neg (t : ℝ) : deg (-t) = -deg t := neg_mul _ _

/-- The three calls take back yaw, pitch and roll. -/
theorem undo_rot (y p r : ℝ) (X : Fin 3 → ℝ) :
    (rotMat (-y) 0 0).mulVec ((rotMat y p r).mulVec X) = (rotMat 0 p r).mulVec X ∧
    (rotMat 0 (-p) 0).mulVec ((rotMat 0 p r).mulVec X) = (rotMat 0 0 r).mulVec X ∧
    (rotMat 0 0 (-r)).mulVec ((rotMat 0 0 r).mulVec X) = X := by
  refine ⟨?_, ?_, ?_⟩
  · rw [Matrix.mulVec_mulVec]
    congr 1
    unfold rotMat
    rw [deg_zero, pitchMat_zero, rollMat_zero, yawMat_zero, mul_one, mul_one, one_mul, Matrix.mul_assoc (yawMat _),
      ← Matrix.mul_assoc (yawMat (deg (-y))), yawMat_add, deg_neg, add_neg_cancel, yawMat_zero, one_mul]
  · rw [Matrix.mulVec_mulVec]
    congr 1
    unfold rotMat
    rw [deg_zero, pitchMat_zero, rollMat_zero, yawMat_zero, mul_one, one_mul, one_mul, one_mul,
      ← Matrix.mul_assoc (pitchMat (deg (-p))), pitchMat_add, deg_neg, add_neg_cancel, pitchMat_zero, one_mul]
  · rw [Matrix.mulVec_mulVec]
    have e : rotMat 0 0 (-r) * rotMat 0 0 r = 1 := by
      unfold rotMat
      rw [deg_zero, pitchMat_zero, yawMat_zero, one_mul, one_mul, one_mul, rollMat_add, deg_neg, add_neg_cancel,
        rollMat_zero]
    rw [e, Matrix.one_mulVec]

theorem opposite_value (t : F64) : t.opposite.value = -t.value := by
  unfold F64.opposite
  split
  · next h => rw [h, zero_value, neg_zero]
  · exact negate_value t

theorem opposite_ne (t : F64) : t.opposite ≠ F64.zero.negate := by
  unfold F64.opposite
  split
  · next h => rw [h]; decide
  · next h =>
    intro e
    have e2 := congrArg F64.negate e
    simp only [F64.negate, Bool.not_not] at e2
    exact h e2

theorem opposite_real (d : Vec3 F64) : (⟨d.x.opposite, d.y.opposite, d.z.opposite⟩ : Vec3 F64).real.fn = -d.real.fn := by
  ext i
  fin_cases i <;> simp [Vec3.real, Vec3.fn, opposite_value]

theorem undoAll_noMinus {ss : List Act} {s : Act} (h : s ∈ undoAll ss) : s.NoMinus := by
  obtain ⟨t, -, h⟩ := List.mem_flatMap.1 h
  cases t <;> simp only [Act.undo, List.mem_cons, List.not_mem_nil, or_false] at h
  · subst h
    intro t ht
    simp only [Vec3.toList, List.mem_cons, List.not_mem_nil, or_false] at ht
    rcases ht with rfl | rfl | rfl <;> exact opposite_ne _
  · rcases h with rfl | rfl | rfl <;> trivial

theorem undo_exact (pos : Bool) (s : Act) (X : Fin 3 → ℝ) : exactAll pos s.undo (s.exact pos X) = X := by
  cases s with
  | move d =>
    simp only [Act.undo, exactAll, List.foldl_cons, List.foldl_nil, Act.exact]
    rw [opposite_real]
    cases pos <;> simp
  | turn y p r =>
    simp only [Act.undo, exactAll, List.foldl_cons, List.foldl_nil, Act.exact, zero_value, negate_value]
    push_cast
    obtain ⟨h1, h2, h3⟩ := undo_rot y.value p.value r.value X
    rw [h1, h2, h3]
  | update => rfl
  | store => rfl

theorem undoAll_exact (pos : Bool) (ss : List Act) (X : Fin 3 → ℝ) : exactAll pos (ss ++ undoAll ss) X = X := by
  induction ss using List.reverseRecOn with
  | nil => rfl
  | append_singleton ss s ih =>
    rw [undoAll_append, List.append_assoc, exactAll_append, exactAll_append pos [s], exactAll_append pos s.undo]
    rw [show exactAll pos [s] (exactAll pos ss X) = s.exact pos (exactAll pos ss X) from rfl, undo_exact]
    rw [exactAll_append] at ih
    exact ih

/-- While one edit is undone, the lengths are those before and after it. -/
theorem undo_within {pos : Bool} {s : Act} {Y : Fin 3 → ℝ} {B : ℝ} (h0 : norm3 Y ≤ B) (h1 : norm3 (s.exact pos Y) ≤ B)
    {pre : List Act} (hpre : pre <+: s.undo) : norm3 (exactAll pos pre (s.exact pos Y)) ≤ B := by
  cases s with
  | move d =>
    rcases pre with _ | ⟨t, pre⟩
    · exact h1
    · simp only [Act.undo, List.cons_prefix_cons, List.prefix_nil] at hpre
      obtain ⟨rfl, rfl⟩ := hpre
      have h := undo_exact pos (.move d) Y
      simp only [Act.undo] at h
      rw [h]
      exact h0
  | turn y p r =>
    have all : ∀ l : List Act, (∀ t ∈ l, ∃ a b c, t = .turn a b c) → ∀ Z, norm3 (exactAll pos l Z) = norm3 Z := by
      intro l
      induction l with
      | nil => intro _ Z; rfl
      | cons t l ih =>
        intro hl Z
        obtain ⟨a, b, c, rfl⟩ := hl _ List.mem_cons_self
        exact (ih (fun t ht => hl t (List.mem_cons_of_mem _ ht)) _).trans (norm3_rot _ _ _ _)
    rw [all]
    · exact h1
    · intro t ht
      have := hpre.subset ht
      simp only [Act.undo, List.mem_cons, List.not_mem_nil, or_false] at this
      rcases this with rfl | rfl | rfl <;> exact ⟨_, _, _, rfl⟩
  | update =>
    simp only [Act.undo, List.prefix_nil] at hpre
    subst hpre
    exact h0
  | store =>
    simp only [Act.undo, List.prefix_nil] at hpre
    subst hpre
    exact h0

theorem prefix_split {α : Type} {l a b : List α} (h : l <+: a ++ b) : l <+: a ∨ ∃ t, l = a ++ t ∧ t <+: b := by
  obtain ⟨r, h⟩ := h
  rcases List.append_eq_append_iff.1 h with ⟨u, h1, h2⟩ | ⟨u, h1, h2⟩
  · exact .inl ⟨u, h1.symm⟩
  · exact .inr ⟨u, h1, ⟨r, h2.symm⟩⟩

theorem undoAll_within {pos : Bool} {ss : List Act} {X : Fin 3 → ℝ} {B : ℝ}
    (h : ∀ pre, pre <+: ss → norm3 (exactAll pos pre X) ≤ B) :
    ∀ pre, pre <+: ss ++ undoAll ss → norm3 (exactAll pos pre X) ≤ B := by
  induction ss using List.reverseRecOn with
  | nil => exact h
  | append_singleton ss s ih =>
    have hs : ∀ pre, pre <+: ss → norm3 (exactAll pos pre X) ≤ B := fun pre hp => h pre (hp.trans (List.prefix_append _ _))
    have h1 := h (ss ++ [s]) List.prefix_rfl
    rw [exactAll_append] at h1
    intro pre hpre
    rw [undoAll_append] at hpre
    rcases prefix_split hpre with h' | ⟨t, rfl, ht⟩
    · exact h pre h'
    · rw [exactAll_append, exactAll_append]
      rcases prefix_split ht with h' | ⟨u, rfl, hu⟩
      · exact undo_within (hs ss List.prefix_rfl) h1 h'
      · rw [exactAll_append, show exactAll pos [s] (exactAll pos ss X) = s.exact pos (exactAll pos ss X) from rfl,
          undo_exact, ← exactAll_append]
        exact ih hs _ ((List.prefix_append_right_inj ss).2 hu)

/-! ## The errors -/

theorem act_error_nonneg {ε B : ℝ} (hε : 0 ≤ ε) (hB : 0 ≤ B) (s : Act) : 0 ≤ s.error ε B := by
  cases s <;> simp only [Act.error] <;> positivity

theorem undo_error {ε B : ℝ} (hε : 0 ≤ ε) (hB : 0 ≤ B) (s : Act) :
    (s.undo.map (Act.error ε B)).sum ≤ 3 * s.error ε B := by
  have h := act_error_nonneg hε hB s
  cases s with
  | move d =>
    simp only [Act.undo, List.map_cons, List.map_nil, List.sum_cons, List.sum_nil, Act.error] at h ⊢
    linarith
  | turn y p r =>
    simp only [Act.undo, List.map_cons, List.map_nil, List.sum_cons, List.sum_nil, Act.error]
    linarith
  | update => simp [Act.undo, Act.error]
  | store =>
    simp only [Act.undo, List.map_nil, List.sum_nil]
    linarith

theorem undoAll_error {ε B : ℝ} (hε : 0 ≤ ε) (hB : 0 ≤ B) (ss : List Act) :
    ((ss ++ undoAll ss).map (Act.error ε B)).sum ≤ 4 * (ss.map (Act.error ε B)).sum := by
  have h : ((undoAll ss).map (Act.error ε B)).sum ≤ 3 * (ss.map (Act.error ε B)).sum := by
    induction ss using List.reverseRecOn with
    | nil => simp [undoAll]
    | append_singleton ss s ih =>
      rw [undoAll_append, List.map_append, List.sum_append, List.map_append, List.sum_append, List.map_singleton,
        List.sum_singleton]
      linarith [undo_error hε hB s]
  rw [List.map_append, List.sum_append]
  linarith

/-! ## No call raises -/

/-- A move or a turn. -/
def Act.Plain : Act → Prop
  | .move _ => True
  | .turn _ _ _ => True
  | .update => False
  | .store => False

theorem undoAll_plain {ss : List Act} {s : Act} (h : s ∈ undoAll ss) : s.Plain := by
  obtain ⟨t, -, h⟩ := List.mem_flatMap.1 h
  cases t <;> simp only [Act.undo, List.mem_cons, List.not_mem_nil, or_false] at h
  · subst h; trivial
  · rcases h with rfl | rfl | rfl <;> trivial

theorem plain_runs [Libm F64] {vs o : Nat} {ε : ℝ} {m : Mesh F64} {p : VAttr} {ss : List Act} (ord : Orderly vs m)
    (apart : m.vattrs.Pairwise (Apart m.vertformat)) (first : FirstPosition m.vattrs p)
    (start : StartsAt m.vertformat p o) (fits : o + 3 ≤ vs) (plain : ∀ s ∈ ss, s.Plain) (fine : ∀ s ∈ ss, s.Fine ε) :
    ∃ m', Runs m ss m' := by
  induction ss generalizing m with
  | nil => exact ⟨m, .nil⟩
  | cons s ss ih =>
    have h1 : ∃ m1, Does m s m1 := by
      have hp := plain s List.mem_cons_self
      have hf := fine s List.mem_cons_self
      cases s with
      | move d =>
        obtain ⟨l, h, -⟩ := C22_translate_moves_positions_only (d := [d.x, d.y, d.z]) ord.verts first start fits
        exact ⟨_, .move h⟩
      | turn y q r =>
        obtain ⟨⟨_, _, c1, s1, -⟩, ⟨_, _, c2, s2, -⟩, ⟨_, _, c3, s3, -⟩⟩ := hf
        obtain ⟨R, hR⟩ := C26_one_map_for_all y q r [] (by
          intro a ha
          simp only [List.mem_cons, List.not_mem_nil, or_false] at ha
          rcases ha with rfl | rfl | rfl
          · rw [c1, s1]; exact ⟨rfl, rfl⟩
          · rw [c2, s2]; exact ⟨rfl, rfl⟩
          · rw [c3, s3]; exact ⟨rfl, rfl⟩)
        obtain ⟨l, h, -⟩ := hR vs m ord.verts ord.vectors apart
        exact ⟨_, .turn h⟩
      | update => exact hp.elim
      | store => exact hp.elim
    obtain ⟨m1, h1⟩ := h1
    obtain ⟨ord1, same⟩ := step_kept ord h1.step
    obtain ⟨m2, h2⟩ := ih ord1 (by rw [same.vattrs, same.vertformat]; exact apart)
      (by rw [same.vattrs]; exact first) (by rw [same.vertformat]; exact start)
      (fun t ht => plain t (List.mem_cons_of_mem _ ht)) (fun t ht => fine t (List.mem_cons_of_mem _ ht))
    exact ⟨m2, .cons h1 h2⟩

theorem runs_kept [Libm F64] {vs : Nat} {m m' : Mesh F64} {ss : List Act} (runs : Runs m ss m') (ord : Orderly vs m) :
    Orderly vs m' ∧ m'.vattrs = m.vattrs ∧ m'.vertformat = m.vertformat := by
  induction runs with
  | nil => exact ⟨ord, rfl, rfl⟩
  | cons h hs ih =>
    obtain ⟨ord1, same⟩ := step_kept ord h.step
    obtain ⟨h1, h2, h3⟩ := ih ord1
    exact ⟨h1, h2.trans same.vattrs, h3.trans same.vertformat⟩

theorem old_plain_runs [Libm F64] {vs : Nat} {ε : ℝ} {o : OldMesh F64} {m : Mesh F64} {ss : List Act}
    (twins : Twins vs o m) (plain : ∀ s ∈ ss, s.Plain) (fine : ∀ s ∈ ss, s.Fine ε) (nz : ∀ s ∈ ss, s.NoMinus) :
    ∃ o', OldRuns o ss o' := by
  induction ss generalizing o m with
  | nil => exact ⟨o, .nil⟩
  | cons s ss ih =>
    have hf := fine s List.mem_cons_self
    have hn := nz s List.mem_cons_self
    have h1 : ∃ o1, OldDoes o s o1 := by
      have hp := plain s List.mem_cons_self
      cases s with
      | move d => exact ⟨_, .move (pair_snd ((C171_no_errors twins).1 d hn).1)⟩
      | turn y q r =>
        obtain ⟨⟨_, _, c1, s1, -⟩, ⟨_, _, c2, s2, -⟩, ⟨_, _, c3, s3, -⟩⟩ := hf
        refine ⟨_, .turn (pair_snd ((C171_no_errors twins).2.1 y q r [] ?_).1)⟩
        intro a ha
        simp only [List.mem_cons, List.not_mem_nil, or_false] at ha
        rcases ha with rfl | rfl | rfl
        · rw [c1, s1]; exact ⟨rfl, rfl⟩
        · rw [c2, s2]; exact ⟨rfl, rfl⟩
        · rw [c3, s3]; exact ⟨rfl, rfl⟩
      | update => exact hp.elim
      | store => exact hp.elim
    obtain ⟨o1, h1⟩ := h1
    obtain ⟨m1, -, t1, -⟩ := h1.twins twins hf hn
    obtain ⟨o2, h2⟩ := ih t1 (fun t ht => plain t (List.mem_cons_of_mem _ ht))
      (fun t ht => fine t (List.mem_cons_of_mem _ ht)) (fun t ht => nz t (List.mem_cons_of_mem _ ht))
    exact ⟨o2, .cons h1 h2⟩

theorem OldRuns.append [Libm F64] {o o1 o2 : OldMesh F64} {ss ts : List Act} (h : OldRuns o ss o1)
    (h' : OldRuns o1 ts o2) : OldRuns o (ss ++ ts) o2 := by
  induction h with
  | nil => exact h'
  | cons d _ ih => exact .cons d (ih h')

/-! ## Collision meshes -/

theorem colUndo_act (s : ColAct) : s.undo.map ColAct.act = s.act.undo := by
  cases s <;> rfl

theorem colUndoAll_append (ss : List ColAct) (s : ColAct) : colUndoAll (ss ++ [s]) = s.undo ++ colUndoAll ss := by
  simp [colUndoAll]

theorem colUndoAll_act (ss : List ColAct) : (colUndoAll ss).map ColAct.act = undoAll (ss.map ColAct.act) := by
  induction ss using List.reverseRecOn with
  | nil => rfl
  | append_singleton ss s ih =>
    rw [colUndoAll_append, List.map_append, List.map_append, List.map_singleton, undoAll_append, ih, colUndo_act]

theorem opposite_fin {t : F64} (h : t.isFin = true) : t.opposite.isFin = true := by
  unfold F64.opposite
  split
  · exact h
  · exact h

theorem colUndoAll_fine {ss : List ColAct} (h : ∀ s ∈ ss, s.Fine) : ∀ s ∈ colUndoAll ss, s.Fine := by
  intro s hs
  obtain ⟨t, ht, hs⟩ := List.mem_flatMap.1 hs
  have ft := h t (List.mem_reverse.1 ht)
  cases t with
  | move d =>
    simp only [ColAct.undo, List.mem_cons, List.not_mem_nil, or_false] at hs
    subst hs
    exact ⟨opposite_fin ft.1, opposite_fin ft.2.1, opposite_fin ft.2.2⟩
  | store => simp [ColAct.undo] at hs

theorem colUndoAll_runs (ss : List ColAct) (m : ColMesh F64 ColFace) : ∃ m', ColRuns m (colUndoAll ss) m' := by
  have h : ∀ s ∈ colUndoAll ss, ∃ d, s = .move d := by
    intro s hs
    obtain ⟨t, -, hs⟩ := List.mem_flatMap.1 hs
    cases t <;> simp only [ColAct.undo, List.mem_cons, List.not_mem_nil, or_false] at hs
    exact ⟨_, hs⟩
  generalize colUndoAll ss = ts at h
  induction ts generalizing m with
  | nil => exact ⟨m, .nil⟩
  | cons t ts ih =>
    obtain ⟨d, rfl⟩ := h _ List.mem_cons_self
    obtain ⟨m', hm⟩ := ih (colTranslate d m) fun s hs => h s (List.mem_cons_of_mem _ hs)
    exact ⟨m', .cons .move hm⟩

theorem ColRuns.append {m m1 m2 : ColMesh F64 ColFace} {ss ts : List ColAct} (h : ColRuns m ss m1)
    (h' : ColRuns m1 ts m2) : ColRuns m (ss ++ ts) m2 := by
  induction h with
  | nil => exact h'
  | cons d _ ih => exact .cons d (ih h')

theorem colUndoAll_error {B : ℝ} (hB : 0 ≤ B) (ss : List ColAct) :
    ((ss ++ colUndoAll ss).map fun s => s.act.error 0 B).sum ≤ 2 * (ss.map fun s => s.act.error 0 B).sum := by
  have h : ((colUndoAll ss).map fun s => s.act.error 0 B).sum ≤ (ss.map fun s => s.act.error 0 B).sum := by
    induction ss using List.reverseRecOn with
    | nil => simp [colUndoAll]
    | append_singleton ss s ih =>
      rw [colUndoAll_append, List.map_append, List.sum_append, List.map_append, List.sum_append, List.map_singleton,
        List.sum_singleton]
      have hs : (s.undo.map fun s => s.act.error 0 B).sum ≤ s.act.error 0 B := by
        cases s with
        | move d => simp [ColAct.undo, ColAct.act, Act.error]
        | store => simpa [ColAct.undo, ColAct.act] using act_error_nonneg (ε := 0) le_rfl hB .store
      linarith
  rw [List.map_append, List.sum_append]
  linarith

theorem colUndoAll_within {ss : List ColAct} {X : Fin 3 → ℝ} {B : ℝ}
    (h : ∀ pre, pre <+: ss → norm3 (exactAll true (pre.map ColAct.act) X) ≤ B) (pre : List ColAct)
    (hp : pre <+: ss ++ colUndoAll ss) : norm3 (exactAll true (pre.map ColAct.act) X) ≤ B := by
  refine undoAll_within (ss := ss.map ColAct.act) (fun q hq => ?_) _ ?_
  · rw [List.prefix_iff_eq_take.1 hq, ← List.map_take]
    exact h _ (List.take_prefix _ _)
  · rw [← colUndoAll_act, ← List.map_append]
    exact hp.map _

end

end Bf2
