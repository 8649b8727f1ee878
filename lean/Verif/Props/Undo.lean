import Verif.UndoLemmas
import Verif.Props.Rigid

/-!
# C184: undoing edits

Moves are undone by moves, and turns by taking back yaw, pitch and roll in three calls (`C81_undone`, exactly).
In doubles, and with saves in between, a list of edits is undone up to rounding.
-/

namespace Bf2

noncomputable section

/-- **C184.** After any list of moves, turns, updates of the bounds and saves, the calls that undo it, the last edit
first, raise nothing, and bring every position, normal and tangent back to within four times the sum of the
errors of the edits. -/
theorem C184_undone [Libm F64] {vs o : Nat} {ε B : ℝ} {m m1 : Mesh F64} {p : VAttr} {acts : List Act}
    (ord : Orderly vs m) (apart : m.vattrs.Pairwise (Apart m.vertformat)) (first : FirstPosition m.vattrs p)
    (start : StartsAt m.vertformat p o) (fits : o + 3 ≤ vs) (runs : Runs m acts m1) (small : ε ≤ 1) (pos : 0 ≤ ε)
    (fine : ∀ s ∈ acts ++ undoAll acts, s.Fine ε)
    (total : 4 * (acts.map (Act.error ε B)).sum ≤ B) (big : B ≤ 2 ^ 126) :
    ∃ m', Runs m1 (undoAll acts) m' ∧ ∀ a ∈ m.vattrs, VectorAttr a → ∀ q, StartsAt m.vertformat a q →
      ∀ v x, vec3At m.vertices (v * vs + q) = some x → x.Finite →
        (∀ pre, pre <+: acts → norm3 (exactAll (decide (a = p)) pre x.real.fn) ≤ B) →
        ∃ x', vec3At m'.vertices (v * vs + q) = some x' ∧ x'.Finite ∧
          norm3 (x'.real.fn - x.real.fn) ≤ 4 * (acts.map (Act.error ε B)).sum := by
  obtain ⟨ord1, ea, ef⟩ := runs_kept runs ord
  obtain ⟨m', h⟩ := plain_runs (ε := ε) (ss := undoAll acts) ord1 (by rw [ea, ef]; exact apart)
    (by rw [ea]; exact first) (by rw [ef]; exact start) fits (fun s hs => undoAll_plain hs)
    (fun s hs => fine s (List.mem_append_right _ hs))
  refine ⟨m', h, fun a ha va q hq v x hx fin within => ?_⟩
  have hB : 0 ≤ B := (norm3_nonneg _).trans (within [] List.nil_prefix)
  have le := undoAll_error pos hB acts
  obtain ⟨x', h1, h2, h3⟩ := C140_drift ord apart (runs.append h) small fine first ha va hq hx fin
    (undoAll_within within) (le.trans total) big
  rw [undoAll_exact] at h3
  exact ⟨x', h1, h2, h3.trans le⟩

/-- **C184.** The same in the deprecated module, for moves and turns. -/
theorem C184_deprecated [Libm F64] {vs : Nat} {ε B : ℝ} {o o1 : OldMesh F64} {m : Mesh F64} {p : VAttr}
    {acts : List Act} (twins : Twins vs o m) (apart : o.vattrs.Pairwise (Apart o.vertformat))
    (first : FirstPosition o.vattrs p) (runs : OldRuns o acts o1) (small : ε ≤ 1) (pos : 0 ≤ ε)
    (fine : ∀ s ∈ acts ++ undoAll acts, s.Fine ε) (nz : ∀ s ∈ acts, s.NoMinus)
    (total : 4 * (acts.map (Act.error ε B)).sum ≤ B) (big : B ≤ 2 ^ 126) :
    ∃ o', OldRuns o1 (undoAll acts) o' ∧ ∀ a q, VectorOf o a q →
      ∀ v x, vec3At o.vertices (v * vs + q) = some x → x.Finite →
        (∀ pre, pre <+: acts → norm3 (exactAll (decide (a = p)) pre x.real.fn) ≤ B) →
        ∃ x', vec3At o'.vertices (v * vs + q) = some x' ∧ x'.Finite ∧
          norm3 (x'.real.fn - x.real.fn) ≤ 4 * (acts.map (Act.error ε B)).sum := by
  obtain ⟨m1, -, t1⟩ := runs.twins twins (fun s hs => fine s (List.mem_append_left _ hs)) nz
  obtain ⟨o', h⟩ := old_plain_runs (ε := ε) (ss := undoAll acts) t1 (fun s hs => undoAll_plain hs)
    (fun s hs => fine s (List.mem_append_right _ hs)) (fun s hs => undoAll_noMinus hs)
  refine ⟨o', h, fun a q vector v x hx fin within => ?_⟩
  have hB : 0 ≤ B := (norm3_nonneg _).trans (within [] List.nil_prefix)
  have le := undoAll_error pos hB acts
  obtain ⟨x', h1, h2, h3⟩ := C173_drift twins apart (runs.append h) small fine
    (fun s hs => (List.mem_append.1 hs).elim (nz s) undoAll_noMinus) first vector hx fin
    (undoAll_within within) (le.trans total) big
  rw [undoAll_exact] at h3
  exact ⟨x', h1, h2, h3.trans le⟩

/-- **C184.** Moves of a collision mesh are undone by moves, with saves in between; twice the errors suffice. -/
theorem C184_col {acts : List ColAct} {m m1 : ColMesh F64 ColFace} {B : ℝ} (wf : ColWF m) (runs : ColRuns m acts m1)
    (fine : ∀ s ∈ acts, s.Fine) (total : 2 * (acts.map fun s => s.act.error 0 B).sum ≤ B) (big : B ≤ 2 ^ 126) :
    ∃ m', ColRuns m1 (colUndoAll acts) m' ∧ ∀ i j k n x, m.vertexAt i j k n = some x → x.Finite →
      (∀ pre, pre <+: acts → norm3 (exactAll true (pre.map ColAct.act) x.real.fn) ≤ B) →
      ∃ x', m'.vertexAt i j k n = some x' ∧ x'.Finite ∧
        norm3 (x'.real.fn - x.real.fn) ≤ 2 * (acts.map fun s => s.act.error 0 B).sum := by
  obtain ⟨m', h⟩ := colUndoAll_runs acts m1
  refine ⟨m', h, fun i j k n x hx fin within => ?_⟩
  have hB : 0 ≤ B := (norm3_nonneg _).trans (within [] List.nil_prefix)
  have le := colUndoAll_error hB acts
  obtain ⟨x', h1, h2, h3⟩ := C180_drift wf (runs.append h)
    (fun s hs => (List.mem_append.1 hs).elim (fine s) (colUndoAll_fine fine s)) hx fin (colUndoAll_within within)
    (le.trans total) big
  rw [List.map_append, colUndoAll_act, undoAll_exact] at h3
  exact ⟨x', h1, h2, h3.trans le⟩

/-! ## The cases are met -/

/-- Sine and cosine of whole right angles between `-90` and `90`. -/
@[reducible] def signedTurn : Libm F64 :=
  ⟨id, fun a => some (if a = flt 90 then flt 1 else if a = (flt 90).negate then (flt 1).negate else flt 0),
    fun a => some (if a = flt 90 ∨ a = (flt 90).negate then flt 0 else flt 1)⟩

theorem signedTurn_right : @TrigWithin signedTurn 0 (flt 90) := by
  have hv : (flt 90).value = 90 := by decide +kernel
  have hd : deg ((flt 90).value : ℝ) = Real.pi / 2 := by rw [hv]; unfold deg; push_cast; ring
  have h0 : (flt 0).value = 0 := by decide +kernel
  have h1 : (flt 1).value = 1 := by decide +kernel
  refine ⟨flt 0, flt 1, by decide +kernel, by decide +kernel, by decide +kernel, by decide +kernel, ?_, ?_, ?_, ?_⟩
  · rw [h0]; norm_num
  · rw [h1]; norm_num
  · rw [hd, h0, Real.cos_pi_div_two]; norm_num
  · rw [hd, h1, Real.sin_pi_div_two]; norm_num

theorem signedTurn_left : @TrigWithin signedTurn 0 (flt 90).negate := by
  have hv : (flt 90).negate.value = -90 := by decide +kernel
  have hd : deg ((flt 90).negate.value : ℝ) = -(Real.pi / 2) := by rw [hv]; unfold deg; push_cast; ring
  have h0 : (flt 0).value = 0 := by decide +kernel
  have h1 : (flt 1).negate.value = -1 := by decide +kernel
  refine ⟨flt 0, (flt 1).negate, by decide +kernel, by decide +kernel, by decide +kernel, by decide +kernel,
    ?_, ?_, ?_, ?_⟩
  · rw [h0]; norm_num
  · rw [h1]; norm_num
  · rw [hd, h0, Real.cos_neg, Real.cos_pi_div_two]; norm_num
  · rw [hd, h1, Real.sin_neg, Real.sin_pi_div_two]; norm_num

theorem signedTurn_zero : @TrigWithin signedTurn 0 F64.zero := by
  have hd : deg (F64.zero.value : ℝ) = 0 := by rw [zero_value]; unfold deg; push_cast; ring
  have h0 : (flt 0).value = 0 := by decide +kernel
  have h1 : (flt 1).value = 1 := by decide +kernel
  refine ⟨flt 1, flt 0, by decide +kernel, by decide +kernel, by decide +kernel, by decide +kernel, ?_, ?_, ?_, ?_⟩
  · rw [h1]; norm_num
  · rw [h0]; norm_num
  · rw [hd, h1, Real.cos_zero]; norm_num
  · rw [hd, h0, Real.sin_zero]; norm_num

theorem undoFine : ∀ s ∈ driftActs ++ undoAll driftActs, @Act.Fine signedTurn 0 s := by
  intro s hs
  simp only [driftActs, undoAll, Act.undo, List.reverse_cons, List.reverse_nil, List.nil_append, List.cons_append,
    List.flatMap_cons, List.flatMap_nil, List.append_nil, List.mem_cons, List.not_mem_nil, or_false] at hs
  rcases hs with rfl | rfl | rfl | rfl | rfl | rfl | rfl | rfl
  · exact ⟨by decide +kernel, by decide +kernel, by decide +kernel⟩
  · exact ⟨signedTurn_right, signedTurn_right, signedTurn_right⟩
  · trivial
  · trivial
  · exact ⟨signedTurn_left, signedTurn_zero, signedTurn_zero⟩
  · exact ⟨signedTurn_zero, signedTurn_left, signedTurn_zero⟩
  · exact ⟨signedTurn_zero, signedTurn_zero, signedTurn_left⟩
  · exact ⟨by decide +kernel, by decide +kernel, by decide +kernel⟩

theorem signed_runs : @Runs signedTurn plainBox driftActs driftD := by
  let _ := signedTurn
  refine .cons (m1 := driftA) (.move ?_) (.cons (m1 := driftB) (.turn ?_) (.cons (m1 := driftC) (.update ?_)
    (.cons (m1 := driftD) (.store (pl := win) (file := (exportMesh win driftC).bytes) ?_ ?_) .nil)))
  · exact Prod.ext rfl (by decide +kernel)
  · decide +kernel
  · exact Prod.ext rfl (by decide +kernel)
  · have : (exportMesh win driftC).err = none := by decide +kernel
    rcases h : exportMesh win driftC with ⟨b, e⟩
    rw [h] at this
    cases this
    rfl
  · decide +kernel

theorem undoSum : 4 * (driftActs.map (Act.error 0 (2 ^ 6))).sum ≤ 2 ^ (-13 : ℤ) :=
  (mul_le_mul_of_nonneg_left driftSum (by norm_num)).trans (by norm_num)

/-- Moved, turned by three right angles and saved, the box goes back: its third vertex is again within `2^-13` of
(16, 17, 18). -/
example : ∃ m' x', @Runs signedTurn driftD (undoAll driftActs) m' ∧ vec3At m'.vertices (2 * 8 + 0) = some x' ∧
    norm3 (x'.real.fn - thirdVertex.real.fn) ≤ 2 ^ (-13 : ℤ) := by
  obtain ⟨m', h1, h⟩ := @C184_undone signedTurn 8 0 0 (2 ^ 6) plainBox driftD ⟨0, 0, 2, 0⟩ driftActs plainBox_orderly
    plainBox_apart plainBox_first (by decide) (by decide) signed_runs (by norm_num) le_rfl undoFine
    (undoSum.trans (by norm_num)) (by norm_num)
  obtain ⟨x', h2, -, h3⟩ := h ⟨0, 0, 2, 0⟩ (by decide +kernel) (by decide) 0 (by decide) 2 thirdVertex (by decide +kernel)
    ⟨by decide +kernel, by decide +kernel, by decide +kernel⟩ (driftWithin thirdVertex_within)
  exact ⟨m', x', h1, h2, h3.trans undoSum⟩

def signedSlid : OldMesh F64 := (oldTranslate { staticBox with indexList := false } [thirdStep.x, thirdStep.y, thirdStep.z]).1
def signedOld : OldMesh F64 := (@oldRotate F64 _ signedTurn signedSlid [flt 90, flt 90, flt 90]).1

theorem signedOld_runs : @OldRuns signedTurn { staticBox with indexList := false } boxActs signedOld := by
  let _ := signedTurn
  refine .cons (o1 := signedSlid) (.move ?_) (.cons (.turn ?_) .nil)
  · exact Prod.ext rfl (by decide +kernel)
  · exact Prod.ext rfl (by decide +kernel)

theorem signedTwin : @Twins signedTurn 12 { staticBox with indexList := false } twinMesh :=
  @Twins.load signedTurn _ _ _ _ _ _ twinMesh_loads.1 twinMesh_loads.2 twinMesh_orderly (staticBox_orderly.arrays rfl)
    (by decide +kernel)

/-- The first corner of `Box()`, moved and turned by the deprecated module, goes back. -/
example : ∃ o' x', @OldRuns signedTurn signedOld (undoAll boxActs) o' ∧ vec3At o'.vertices (0 * 12 + 0) = some x' ∧
    norm3 (x'.real.fn - cornerBox.real.fn) ≤ 2 ^ (-13 : ℤ) := by
  have pre : boxActs <+: driftActs := ⟨[.update, .store], rfl⟩
  have hs : 4 * (boxActs.map (Act.error 0 (2 ^ 6))).sum ≤ 2 ^ (-13 : ℤ) := by
    refine le_trans ?_ undoSum
    simp only [boxActs, driftActs, List.map_cons, List.map_nil, List.sum_cons, List.sum_nil, Act.error]
    have : (0 : ℝ) ≤ 2 ^ (-22 : ℤ) * 2 ^ 6 + 2 ^ (-149 : ℤ) := by positivity
    linarith
  have hu : undoAll boxActs = undoAll driftActs := rfl
  obtain ⟨o', h1, h⟩ := @C184_deprecated signedTurn 12 0 (2 ^ 6) { staticBox with indexList := false } signedOld twinMesh
    ⟨0, 0, 2, 0⟩ boxActs signedTwin boxAttrs_apart ⟨[], _, rfl, by decide, by decide⟩ signedOld_runs (by norm_num) le_rfl
    (fun s hs => undoFine s ((List.mem_append.1 hs).elim (fun h => List.mem_append_left _ (pre.subset h))
      (fun h => List.mem_append_right _ (hu ▸ h))))
    (by
      intro s hs
      simp only [boxActs, List.mem_cons, List.not_mem_nil, or_false] at hs
      rcases hs with rfl | rfl
      · show ∀ t ∈ thirdStep.toList, t ≠ minusZero
        decide +kernel
      · trivial)
    (hs.trans (by norm_num)) (by norm_num)
  obtain ⟨x', h2, -, h3⟩ := h ⟨0, 0, 2, 0⟩ 0 ⟨by decide +kernel, by decide, by decide +kernel⟩ 0 cornerBox
    (by decide +kernel) ⟨by decide +kernel, by decide +kernel, by decide +kernel⟩
    (fun l hl => driftWithin (fun c => (cornerBox_le c).trans (by norm_num)) l (hl.trans pre))
  exact ⟨o', x', h1, h2, h3.trans hs⟩

/-- The triangle, moved by a third and saved, goes back. -/
example : ∃ m' x', ColRuns alignedCol (colUndoAll [.move thirdStep, .store]) m' ∧ m'.vertexAt 0 0 0 0 = some x' ∧
    norm3 (x'.real.fn - thirdVertex.real.fn) ≤ 2 ^ (-14 : ℤ) := by
  have hs : 2 * ([ColAct.move thirdStep, .store].map fun s => s.act.error 0 (2 ^ 6)).sum ≤ 2 ^ (-14 : ℤ) :=
    (mul_le_mul_of_nonneg_left orderSum (by norm_num)).trans (by norm_num)
  obtain ⟨m', h1, h⟩ := C184_col (acts := [.move thirdStep, .store]) (B := 2 ^ 6) boxCol_wf aligned_runs orderFine
    (hs.trans (by norm_num)) (by norm_num)
  obtain ⟨x', h2, -, h3⟩ := h 0 0 0 0 thirdVertex (by decide +kernel)
    ⟨by decide +kernel, by decide +kernel, by decide +kernel⟩ (orderWithin thirdVertex_within)
  exact ⟨m', x', h1, h2, h3.trans hs⟩

end

end Bf2
