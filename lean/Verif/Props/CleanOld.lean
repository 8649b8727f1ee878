import Verif.Props.Clean
import Verif.Props.OldDrift

/-!
# C195: edits of the deprecated module that stay within binary32
-/

namespace Bf2

noncomputable section

section
variable [Libm F64] {vs : Nat} {o o' : OldMesh F64} {m : Mesh F64} {p a : VAttr} {q v : Nat} {x : Vec3 F64}

omit [Libm F64] in
theorem moves_flat (ds : List (Vec3 F64)) : (ds.map Block.move).flatMap Block.acts = ds.map Act.move := by
  induction ds with
  | nil => rfl
  | cons d ds ih => rw [List.map_cons, List.flatMap_cons, ih]; rfl

/-- **C195.** Any list of moves of the deprecated module under which the exactly moved vector always is in binary32 is
carried out exactly. -/
theorem C195_moves {ds : List (Vec3 F64)} (twins : Twins vs o m) (apart : o.vattrs.Pairwise (Apart o.vertformat))
    (runs : OldRuns o (ds.map Act.move) o') (finite : ∀ d ∈ ds, d.Finite) (nz : ∀ d ∈ ds, ∀ t ∈ d.toList, t ≠ minusZero)
    (first : FirstPosition o.vattrs p) (vector : VectorOf o a q) (hx : vec3At o.vertices (v * vs + q) = some x)
    (fin : x.Finite) (start : Exactly x.real.fn) (clean : Clean (decide (a = p)) (ds.map Block.move) x.real.fn) :
    ∃ x', vec3At o'.vertices (v * vs + q) = some x' ∧ x'.Finite ∧
      x'.real.fn = exactAll (decide (a = p)) (ds.map Act.move) x.real.fn := by
  obtain ⟨m', r, t⟩ := runs.twins (ε := 0) twins
    (by intro s hs; obtain ⟨d, hd, rfl⟩ := List.mem_map.1 hs; exact finite d hd)
    (by intro s hs; obtain ⟨d, hd, rfl⟩ := List.mem_map.1 hs; exact nz d hd)
  obtain ⟨mem, hv, st⟩ := vector
  have h := twins.inStep
  rw [h.attrs] at apart first mem
  rw [h.vertformat] at apart st
  rw [h.vertices] at hx
  rw [t.inStep.vertices]
  rw [← moves_flat] at r ⊢
  exact C193_exact h.new apart r
    (by intro b hb; obtain ⟨d, hd, rfl⟩ := List.mem_map.1 hb; exact finite d hd) first mem hv st hx fin start clean

/-- **C195.** Any list of moves and then a turn, or moves only, in the file the deprecated module saves. -/
theorem C195_saved {ε : ℝ} {acts : List Act} {bs : List Block} (ends : bs.flatMap Block.acts = acts ++ [.store])
    (twins : Twins vs o m) (apart : o.vattrs.Pairwise (Apart o.vertformat)) (runs : OldRuns o acts o')
    (fine : ∀ s ∈ acts, s.Fine ε) (small : ε ≤ 2 ^ (-50 : ℤ)) (nz : ∀ s ∈ acts, s.NoMinus)
    (first : FirstPosition o.vattrs p) (vector : VectorOf o a q) (hx : vec3At o.vertices (v * vs + q) = some x)
    (fin : x.Finite) (start : Exactly x.real.fn) (clean : Clean (decide (a = p)) bs x.real.fn) {pl : Plat} {file : Bytes}
    (saved : oldSave pl o' = ⟨file, none⟩) :
    ∃ r, load pl o.kind file = .ok r ∧ ∃ x', vec3At r.vertices (v * vs + q) = some x' ∧ x'.Finite ∧
      x'.real.fn = exactAll (decide (a = p)) acts x.real.fn := by
  obtain ⟨m', r, t⟩ := runs.twins twins fine nz
  obtain ⟨mem, hv, st⟩ := vector
  have h := twins.inStep
  have hk : o'.kind = o.kind := runs.kind twins fine nz
  rw [h.attrs] at apart first mem
  rw [h.vertformat] at apart st
  rw [h.vertices] at hx
  obtain ⟨out, r1, e1, e2, hv'⟩ := oldSave_vertices t.inStep.old.wf (by rw [saved])
  obtain rfl : file = out := by rw [saved] at e1; injection e1
  have e3 : (exportMesh pl m').err = none := (C171_saves t pl).1 (by rw [saved])
  obtain ⟨g, e4⟩ : ∃ g, exportMesh pl m' = ⟨g, none⟩ := ⟨_, out_eq e3⟩
  have e5 := C02_reload_of_export pl m' g t.inStep.new.wf e4
  have runs' : Runs m (acts ++ [.store]) (m'.map stored) := r.append (.cons (.store e4 e5) .nil)
  rw [hk] at e2
  refine ⟨r1, e2, ?_⟩
  have hve : r1.vertices = (m'.map stored).vertices := by
    rw [hv', t.inStep.vertices]
    rfl
  have hex : exactAll (decide (a = p)) (acts ++ [Act.store]) x.real.fn = exactAll (decide (a = p)) acts x.real.fn := by
    rw [exactAll_append]
    rfl
  rw [hve, ← hex]
  rw [← ends] at runs' ⊢
  refine C193_exact h.new apart runs' ?_ first mem hv st hx fin start clean
  intro b hb
  have sub : ∀ s ∈ b.acts, s = .store ∨ s ∈ acts := by
    intro s hs
    have : s ∈ bs.flatMap Block.acts := List.mem_flatMap.2 ⟨b, hb, hs⟩
    rw [ends] at this
    rcases List.mem_append.1 this with h | h
    · exact .inr h
    · exact .inl (List.mem_singleton.1 h)
  cases b with
  | move d =>
    rcases sub (.move d) List.mem_cons_self with h | h
    · cases h
    · exact fine _ h
  | turn y p r =>
    rcases sub (.turn y p r) List.mem_cons_self with h | h
    · cases h
    · exact ⟨ε, small, fine _ h⟩
  | update => trivial
  | store => trivial

end

/-! ## A case -/

def movedBox : OldMesh F64 := (oldTranslate { staticBox with indexList := false } littleMove.toList).1
def yawedBox : OldMesh F64 := (@oldRotate F64 _ roundedTurns movedBox [flt 90, flt 0, flt 0]).1

theorem yawedBox_runs : @OldRuns roundedTurns { staticBox with indexList := false }
    [.move littleMove, .turn (flt 90) (flt 0) (flt 0)] yawedBox := by
  let _ : Libm F64 := roundedTurns
  refine .cons (o1 := movedBox) (.move ?_) (.cons (.turn ?_) .nil)
  · exact Prod.ext rfl (by decide +kernel)
  · exact Prod.ext rfl (by decide +kernel)

theorem cornerBox_exactly : Exactly ![1 / 2, 1, -1 / 2] ∧ Exactly ![3 / 2, 3, 5 / 2] ∧ Exactly ![5 / 2, 3, -3 / 2] := by
  have h : ∀ w ∈ [(1 / 2 : ℚ), 1, -1 / 2, 3 / 2, 3, 5 / 2, -3 / 2], Binary32 w ∧ |w| ≤ 2 ^ 118 := by
    intro w hw
    simp only [List.mem_cons, List.not_mem_nil, or_false] at hw
    rcases hw with rfl | rfl | rfl | rfl | rfl | rfl | rfl
    · exact ⟨binary32_of (x := hf 1) (by decide +kernel), by norm_num [abs_le]⟩
    · exact ⟨binary32_of (x := hf 2) (by decide +kernel), by norm_num [abs_le]⟩
    · exact ⟨binary32_of (x := hf (-1)) (by decide +kernel), by norm_num [abs_le]⟩
    · exact ⟨binary32_of (x := hf 3) (by decide +kernel), by norm_num [abs_le]⟩
    · exact ⟨binary32_of (x := hf 6) (by decide +kernel), by norm_num [abs_le]⟩
    · exact ⟨binary32_of (x := hf 5) (by decide +kernel), by norm_num [abs_le]⟩
    · exact ⟨binary32_of (x := hf (-3)) (by decide +kernel), by norm_num [abs_le]⟩
  have a := exactly_of (b := 1 / 2) (c := 1) (d := -1 / 2) fun w hw => h w (by revert hw; simp; tauto)
  have b := exactly_of (b := 3 / 2) (c := 3) (d := 5 / 2) fun w hw => h w (by revert hw; simp; tauto)
  have c := exactly_of (b := 5 / 2) (c := 3) (d := -3 / 2) fun w hw => h w (by revert hw; simp; tauto)
  push_cast at a b c
  exact ⟨a, b, c⟩

theorem corner_sum : (![1 / 2, 1, -1 / 2] : Fin 3 → ℝ) + littleMove.real.fn = ![3 / 2, 3, 5 / 2] := by
  rw [littleMove_fn.2]
  ext i
  fin_cases i <;> norm_num

theorem corner_turned : (rotMat ((flt 90).value : ℝ) ((flt 0).value : ℝ) ((flt 0).value : ℝ)).mulVec
    ![3 / 2, 3, 5 / 2] = ![5 / 2, 3, -3 / 2] := by
  have h : (flt 90).value = 90 ∧ (flt 0).value = 0 := by decide +kernel
  have := (C190_quarter ⟨3 / 2, 3, 5 / 2⟩ (.inl rfl)).1
  rw [h.1, h.2]
  norm_num [spin, Vec3.map, Vec3.fn] at this ⊢
  exact this.symm

/-- `Box()`, loaded by both modules and moved by (1, 2, 3): its corner at (0.5, 1, -0.5) is at (1.5, 3, 2.5). -/
example : ∃ x', vec3At movedBox.vertices (0 * 12 + 0) = some x' ∧ x'.Finite ∧ x'.real.fn = ![3 / 2, 3, 5 / 2] := by
  let _ : Libm F64 := roundedTurns
  have tw : Twins 12 { staticBox with indexList := false } twinMesh :=
    .load twinMesh_loads.1 twinMesh_loads.2 twinMesh_orderly (staticBox_orderly.arrays rfl) (by decide +kernel)
  have runs : OldRuns { staticBox with indexList := false } ([littleMove].map Act.move) movedBox := by
    refine .cons (o1 := movedBox) (.move ?_) .nil
    exact Prod.ext rfl (by decide +kernel)
  rw [← corner_sum, ← cornerBox_fn]
  refine C195_moves (ds := [littleMove]) (p := ⟨0, 0, 2, 0⟩) (a := ⟨0, 0, 2, 0⟩) (q := 0) (v := 0) (x := cornerBox) tw
    boxAttrs_apart runs (by intro d hd; rw [List.mem_singleton.1 hd]; exact littleMove_fn.1) (by decide +kernel)
    ⟨[], _, rfl, by decide, by decide⟩ ⟨by decide +kernel, by decide, by decide +kernel⟩ (by decide +kernel)
    ⟨by decide +kernel, by decide +kernel, by decide +kernel⟩ (by rw [cornerBox_fn]; exact cornerBox_exactly.1) ?_
  refine ⟨?_, fun _ _ _ => trivial, trivial⟩
  show Exactly (cornerBox.real.fn + littleMove.real.fn)
  rw [cornerBox_fn, corner_sum]
  exact cornerBox_exactly.2.1

/-- Then turned by a right angle it is at (2.5, 3, -1.5) in the file saved. -/
example {file : Bytes} (saved : oldSave win yawedBox = ⟨file, none⟩) :
    ∃ r, load win staticKind file = .ok r ∧ ∃ x', vec3At r.vertices (0 * 12 + 0) = some x' ∧ x'.Finite ∧
      x'.real.fn = ![5 / 2, 3, -3 / 2] := by
  let _ : Libm F64 := roundedTurns
  have tw : Twins 12 { staticBox with indexList := false } twinMesh :=
    .load twinMesh_loads.1 twinMesh_loads.2 twinMesh_orderly (staticBox_orderly.arrays rfl) (by decide +kernel)
  have e1 : exactAll true (Block.move littleMove).acts ![1 / 2, 1, -1 / 2] = ![3 / 2, 3, 5 / 2] := corner_sum
  have e2 : exactAll true (Block.turn (flt 90) (flt 0) (flt 0)).acts ![3 / 2, 3, 5 / 2] = ![5 / 2, 3, -3 / 2] :=
    corner_turned
  have keeps : ∀ i w, (![5 / 2, 3, -3 / 2] : Fin 3 → ℝ) i = (w : ℚ) →
      norm3 ![3 / 2, 3, 5 / 2] ≤ 2 ^ 18 * |(w : ℝ)| := by
    intro i w h
    have h1 : norm3 ![3 / 2, 3, 5 / 2] ≤ 2 * 3 := norm3_le fun j => by fin_cases j <;> norm_num [abs_le]
    have h2 : (1 : ℝ) ≤ |(w : ℝ)| := by rw [← h]; fin_cases i <;> norm_num [le_abs]
    linarith
  obtain ⟨r, h0, x', h1, h2, h3⟩ := C195_saved (ε := 2 ^ (-52 : ℤ))
    (bs := [.move littleMove, .turn (flt 90) (flt 0) (flt 0)]) (p := ⟨0, 0, 2, 0⟩) (a := ⟨0, 0, 2, 0⟩) (q := 0) (v := 0)
    (x := cornerBox) rfl tw boxAttrs_apart yawedBox_runs
    (by
      intro s hs
      simp only [List.mem_cons, List.not_mem_nil, or_false] at hs
      rcases hs with rfl | rfl
      · exact littleMove_fn.1
      · exact ⟨roundedTurns_within.1, roundedTurns_zero, roundedTurns_zero⟩)
    (zpow_le_zpow_right₀ (by norm_num) (by norm_num))
    (by
      intro s hs
      simp only [List.mem_cons, List.not_mem_nil, or_false] at hs
      rcases hs with rfl | rfl
      · show ∀ t ∈ littleMove.toList, t ≠ minusZero
        decide +kernel
      · trivial)
    ⟨[], _, rfl, by decide, by decide⟩ ⟨by decide +kernel, by decide, by decide +kernel⟩ (by decide +kernel)
    ⟨by decide +kernel, by decide +kernel, by decide +kernel⟩ (by rw [cornerBox_fn]; exact cornerBox_exactly.1)
    (by
      rw [cornerBox_fn, decide_eq_true rfl]
      simp only [Clean, e1, e2]
      exact ⟨cornerBox_exactly.2.1, fun _ _ _ => trivial, cornerBox_exactly.2.2, keeps, trivial⟩)
    saved
  refine ⟨r, h0, x', h1, h2, h3.trans ?_⟩
  rw [cornerBox_fn, decide_eq_true rfl]
  show (rotMat _ _ _).mulVec (_ + littleMove.real.fn) = _
  rw [corner_sum]
  exact corner_turned

/-- And it can be saved. -/
example : (oldSave win yawedBox).err = none := by decide +kernel

end

end Bf2
