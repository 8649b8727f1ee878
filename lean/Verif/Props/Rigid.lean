import Verif.RigidLemmas
import Verif.Props.Order
import Verif.Props.OldDrift

/-!
# C183: the shape of a mesh

Moving, turning and saving take every vertex a little off its exact place (C140, C173, C180).  Exact moves and
turns keep all distances and all angles, so the mesh keeps its shape up to those errors: distances between
vertices, and angles between normals and tangents.
-/

namespace Bf2

noncomputable section

section
variable [Libm F64] {vs : Nat} {ε B : ℝ} {acts : List Act} {p a b : VAttr} {x y : Vec3 F64}

/-- **C183.** Any list of moves, turns, updates of the bounds and saves of a visible mesh: the distance of two
vertices changes by at most twice the sum of the errors of the single edits. -/
theorem C183_distance {m m' : Mesh F64} {o v w : Nat} (ord : Orderly vs m)
    (apart : m.vattrs.Pairwise (Apart m.vertformat)) (runs : Runs m acts m') (small : ε ≤ 1)
    (fine : ∀ s ∈ acts, s.Fine ε) (first : FirstPosition m.vattrs p) (mem : p ∈ m.vattrs) (vector : VectorAttr p)
    (ho : StartsAt m.vertformat p o) (hx : vec3At m.vertices (v * vs + o) = some x)
    (hy : vec3At m.vertices (w * vs + o) = some y) (fx : x.Finite) (fy : y.Finite)
    (wx : ∀ pre, pre <+: acts → norm3 (exactAll true pre x.real.fn) ≤ B)
    (wy : ∀ pre, pre <+: acts → norm3 (exactAll true pre y.real.fn) ≤ B)
    (total : (acts.map (Act.error ε B)).sum ≤ B) (big : B ≤ 2 ^ 126) :
    ∃ x' y', vec3At m'.vertices (v * vs + o) = some x' ∧ vec3At m'.vertices (w * vs + o) = some y' ∧
      |norm3 (x'.real.fn - y'.real.fn) - norm3 (x.real.fn - y.real.fn)| ≤ 2 * (acts.map (Act.error ε B)).sum := by
  have e : decide (p = p) = true := decide_eq_true rfl
  obtain ⟨x', h1, -, h2⟩ := C140_drift ord apart runs small fine first mem vector ho hx fx (by rw [e]; exact wx) total big
  obtain ⟨y', k1, -, k2⟩ := C140_drift ord apart runs small fine first mem vector ho hy fy (by rw [e]; exact wy) total big
  rw [e] at h2 k2
  refine ⟨x', y', h1, k1, ?_⟩
  rw [← exactAll_diff true acts x.real.fn]
  exact near_diff h2 k2

/-- **C183.** Normals and tangents: the scalar product of two of them, of the same or of different vertices, changes
by little, wherever the mesh was moved; so right angles stay nearly right. -/
theorem C183_angle {m m' : Mesh F64} {o q v w : Nat} (ord : Orderly vs m)
    (apart : m.vattrs.Pairwise (Apart m.vertformat)) (runs : Runs m acts m') (small : ε ≤ 1)
    (fine : ∀ s ∈ acts, s.Fine ε) (first : FirstPosition m.vattrs p)
    (ma : a ∈ m.vattrs) (va : VectorAttr a) (oa : a ≠ p) (ho : StartsAt m.vertformat a o)
    (mb : b ∈ m.vattrs) (vb : VectorAttr b) (ob : b ≠ p) (hq : StartsAt m.vertformat b q)
    (hx : vec3At m.vertices (v * vs + o) = some x) (hy : vec3At m.vertices (w * vs + q) = some y)
    (fx : x.Finite) (fy : y.Finite) (lx : x.real.len ≤ B) (ly : y.real.len ≤ B)
    (total : (acts.map (Act.error ε B)).sum ≤ B) (big : B ≤ 2 ^ 126) :
    ∃ x' y', vec3At m'.vertices (v * vs + o) = some x' ∧ vec3At m'.vertices (w * vs + q) = some y' ∧
      |dot3 x'.real.fn y'.real.fn - dot3 x.real.fn y.real.fn| ≤
        (acts.map (Act.error ε B)).sum * (2 * B + (acts.map (Act.error ε B)).sum) := by
  have ea : decide (a = p) = false := decide_eq_false oa
  have eb : decide (b = p) = false := decide_eq_false ob
  obtain ⟨x', h1, -, h2⟩ := C140_drift ord apart runs small fine first ma va ho hx fx
    (fun pre _ => by rw [ea, exactAll_length]; exact lx) total big
  obtain ⟨y', k1, -, k2⟩ := C140_drift ord apart runs small fine first mb vb hq hy fy
    (fun pre _ => by rw [eb, exactAll_length]; exact ly) total big
  rw [ea] at h2
  rw [eb] at k2
  refine ⟨x', y', h1, k1, ?_⟩
  rw [← exactAll_dot acts x.real.fn]
  exact near_dot h2 k2 (by rw [exactAll_length]; exact lx) (by rw [exactAll_length]; exact ly)

/-- **C183.** Distances of vertices after moves and turns in the deprecated module. -/
theorem C183_deprecated {o o' : OldMesh F64} {m : Mesh F64} {q v w : Nat} (twins : Twins vs o m)
    (apart : o.vattrs.Pairwise (Apart o.vertformat)) (runs : OldRuns o acts o') (small : ε ≤ 1)
    (fine : ∀ s ∈ acts, s.Fine ε) (nz : ∀ s ∈ acts, s.NoMinus) (first : FirstPosition o.vattrs p)
    (vector : VectorOf o p q) (hx : vec3At o.vertices (v * vs + q) = some x)
    (hy : vec3At o.vertices (w * vs + q) = some y) (fx : x.Finite) (fy : y.Finite)
    (wx : ∀ pre, pre <+: acts → norm3 (exactAll true pre x.real.fn) ≤ B)
    (wy : ∀ pre, pre <+: acts → norm3 (exactAll true pre y.real.fn) ≤ B)
    (total : (acts.map (Act.error ε B)).sum ≤ B) (big : B ≤ 2 ^ 126) :
    ∃ x' y', vec3At o'.vertices (v * vs + q) = some x' ∧ vec3At o'.vertices (w * vs + q) = some y' ∧
      |norm3 (x'.real.fn - y'.real.fn) - norm3 (x.real.fn - y.real.fn)| ≤ 2 * (acts.map (Act.error ε B)).sum := by
  have e : decide (p = p) = true := decide_eq_true rfl
  obtain ⟨x', h1, -, h2⟩ := C173_drift twins apart runs small fine nz first vector hx fx (by rw [e]; exact wx) total big
  obtain ⟨y', k1, -, k2⟩ := C173_drift twins apart runs small fine nz first vector hy fy (by rw [e]; exact wy) total big
  rw [e] at h2 k2
  refine ⟨x', y', h1, k1, ?_⟩
  rw [← exactAll_diff true acts x.real.fn]
  exact near_diff h2 k2

end

/-- **C183.** Distances of vertices of a collision mesh after moves and saves. -/
theorem C183_col {acts : List ColAct} {m m' : ColMesh F64 ColFace} {B : ℝ} {x y : Vec3 F64} (wf : ColWF m)
    (runs : ColRuns m acts m') (fine : ∀ s ∈ acts, s.Fine) {i j k n i' j' k' n' : Nat}
    (hx : m.vertexAt i j k n = some x) (hy : m.vertexAt i' j' k' n' = some y) (fx : x.Finite) (fy : y.Finite)
    (wx : ∀ pre, pre <+: acts → norm3 (exactAll true (pre.map ColAct.act) x.real.fn) ≤ B)
    (wy : ∀ pre, pre <+: acts → norm3 (exactAll true (pre.map ColAct.act) y.real.fn) ≤ B)
    (total : (acts.map fun s => s.act.error 0 B).sum ≤ B) (big : B ≤ 2 ^ 126) :
    ∃ x' y', m'.vertexAt i j k n = some x' ∧ m'.vertexAt i' j' k' n' = some y' ∧
      |norm3 (x'.real.fn - y'.real.fn) - norm3 (x.real.fn - y.real.fn)| ≤
        2 * (acts.map fun s => s.act.error 0 B).sum := by
  obtain ⟨x', h1, -, h2⟩ := C180_drift wf runs fine hx fx wx total big
  obtain ⟨y', k1, -, k2⟩ := C180_drift wf runs fine hy fy wy total big
  refine ⟨x', y', h1, k1, ?_⟩
  rw [← exactAll_diff true (acts.map ColAct.act) x.real.fn]
  exact near_diff h2 k2

/-! ## The cases are met -/

theorem driftSum : (driftActs.map (Act.error 0 (2 ^ 6))).sum ≤ 2 ^ (-15 : ℤ) := by
  have t1 : (2 : ℝ) ^ (-1074 : ℤ) ≤ 2 ^ (-60 : ℤ) := zpow_le_zpow_right₀ (by norm_num) (by norm_num)
  have t2 : (2 : ℝ) ^ (-1069 : ℤ) ≤ 2 ^ (-60 : ℤ) := zpow_le_zpow_right₀ (by norm_num) (by norm_num)
  have t3 : (2 : ℝ) ^ (-149 : ℤ) ≤ 2 ^ (-60 : ℤ) := zpow_le_zpow_right₀ (by norm_num) (by norm_num)
  simp only [driftActs, List.map_cons, List.map_nil, List.sum_cons, List.sum_nil, Act.error]
  generalize (2 : ℝ) ^ (-1074 : ℤ) = a at *
  generalize (2 : ℝ) ^ (-1069 : ℤ) = b at *
  generalize (2 : ℝ) ^ (-149 : ℤ) = c at *
  norm_num at *
  linarith

theorem driftSum_nonneg : 0 ≤ (driftActs.map (Act.error 0 (2 ^ 6))).sum := by
  simp only [driftActs, List.map_cons, List.map_nil, List.sum_cons, List.sum_nil, Act.error]
  positivity

theorem driftFine : ∀ s ∈ driftActs, @Act.Fine quarterTurn 0 s := by
  intro s hs
  simp only [driftActs, List.mem_cons, List.not_mem_nil, or_false] at hs
  rcases hs with rfl | rfl | rfl | rfl
  · exact ⟨by decide +kernel, by decide +kernel, by decide +kernel⟩
  · exact ⟨quarterTurn_within, quarterTurn_within, quarterTurn_within⟩
  · trivial
  · trivial

theorem driftWithin {X : Fin 3 → ℝ} (b : ∀ i, |X i| ≤ 18) (pre : List Act) (hpre : pre <+: driftActs) :
    norm3 (exactAll true pre X) ≤ 2 ^ 6 := by
  have l1 : norm3 X ≤ 2 ^ 6 := (norm3_le b).trans (by norm_num)
  have l2 : norm3 (X + thirdStep.real.fn) ≤ 2 ^ 6 := by
    refine (norm3_le (β := 19) fun i => ?_).trans (by norm_num)
    refine (abs_add_le _ _).trans ?_
    linarith [thirdStep_le i, b i]
  rcases pre with _ | ⟨s, _ | ⟨t, _ | ⟨u, _ | ⟨w, _ | ⟨q, pre⟩⟩⟩⟩⟩ <;>
    simp only [driftActs, List.cons_prefix_cons, List.prefix_nil, reduceCtorEq, and_false] at hpre
  · exact l1
  · obtain ⟨rfl, -⟩ := hpre
    exact l2
  · obtain ⟨rfl, rfl, -⟩ := hpre
    exact (norm3_rot _ _ _ _).trans_le l2
  · obtain ⟨rfl, rfl, rfl, -⟩ := hpre
    exact (norm3_rot _ _ _ _).trans_le l2
  · obtain ⟨rfl, rfl, rfl, rfl, -⟩ := hpre
    exact (norm3_rot _ _ _ _).trans_le l2

/-- The numbers of the box. -/
theorem flt_within {i j k : Nat} (hi : |((flt i).value : ℝ)| ≤ 18) (hj : |((flt j).value : ℝ)| ≤ 18)
    (hk : |((flt k).value : ℝ)| ≤ 18) (c : Fin 3) : |(⟨flt i, flt j, flt k⟩ : Vec3 F64).real.fn c| ≤ 18 := by
  fin_cases c
  exacts [hi, hj, hk]

theorem originVertex_within (c : Fin 3) : |(⟨flt 0, flt 1, flt 2⟩ : Vec3 F64).real.fn c| ≤ 18 := by
  have h : ∀ i ∈ [0, 1, 2], |(flt i).value| ≤ 18 := by decide +kernel
  refine flt_within ?_ ?_ ?_ c
  · exact_mod_cast h 0 (by simp)
  · exact_mod_cast h 1 (by simp)
  · exact_mod_cast h 2 (by simp)

/-- Moved, turned by three right angles and saved, the box has its first and third vertex as far apart as before,
up to `2^-14`. -/
example : ∃ x' y', vec3At driftD.vertices (0 * 8 + 0) = some x' ∧ vec3At driftD.vertices (2 * 8 + 0) = some y' ∧
    |norm3 (x'.real.fn - y'.real.fn) - norm3 ((⟨flt 0, flt 1, flt 2⟩ : Vec3 F64).real.fn - thirdVertex.real.fn)| ≤
      2 ^ (-14 : ℤ) := by
  obtain ⟨x', y', h1, h2, h⟩ := @C183_distance quarterTurn 8 0 (2 ^ 6) driftActs ⟨0, 0, 2, 0⟩ ⟨flt 0, flt 1, flt 2⟩
    thirdVertex plainBox driftD 0 0 2 plainBox_orderly plainBox_apart drift_runs (by norm_num) driftFine plainBox_first
    (by decide +kernel) (by decide) (by decide +kernel) (by decide +kernel) (by decide +kernel)
    ⟨by decide +kernel, by decide +kernel, by decide +kernel⟩ ⟨by decide +kernel, by decide +kernel, by decide +kernel⟩
    (driftWithin originVertex_within) (driftWithin thirdVertex_within) (driftSum.trans (by norm_num)) (by norm_num)
  refine ⟨x', y', h1, h2, h.trans ((mul_le_mul_of_nonneg_left driftSum (by norm_num)).trans ?_)⟩
  norm_num

/-- The scalar product of its first and third normal, (3, 4, 5) and (19, 20, 21), is the same up to `2^-7`. -/
example : ∃ x' y', vec3At driftD.vertices (0 * 8 + 3) = some x' ∧ vec3At driftD.vertices (2 * 8 + 3) = some y' ∧
    |dot3 x'.real.fn y'.real.fn - 242| ≤ 2 ^ (-7 : ℤ) := by
  have v : ∀ i ∈ [3, 4, 5, 19, 20, 21], (flt i).value = i := by decide +kernel
  have ex : (⟨flt 3, flt 4, flt 5⟩ : Vec3 F64).real = ⟨3, 4, 5⟩ := by
    unfold Vec3.real
    simp only [v 3 (by simp), v 4 (by simp), v 5 (by simp)]
    norm_num
  have ey : (⟨flt 19, flt 20, flt 21⟩ : Vec3 F64).real = ⟨19, 20, 21⟩ := by
    unfold Vec3.real
    simp only [v 19 (by simp), v 20 (by simp), v 21 (by simp)]
    norm_num
  obtain ⟨x', y', h1, h2, h⟩ := @C183_angle quarterTurn 8 0 (2 ^ 6) driftActs ⟨0, 0, 2, 0⟩ ⟨0, 12, 2, 3⟩ ⟨0, 12, 2, 3⟩
    ⟨flt 3, flt 4, flt 5⟩ ⟨flt 19, flt 20, flt 21⟩ plainBox driftD 3 3 0 2 plainBox_orderly plainBox_apart drift_runs
    (by norm_num) driftFine plainBox_first (by decide +kernel) (by decide) (by decide) (by decide +kernel)
    (by decide +kernel) (by decide) (by decide) (by decide +kernel) (by decide +kernel) (by decide +kernel)
    ⟨by decide +kernel, by decide +kernel, by decide +kernel⟩ ⟨by decide +kernel, by decide +kernel, by decide +kernel⟩
    (by
      rw [ex]
      unfold Vec3.len
      rw [Real.sqrt_le_left (by norm_num)]
      norm_num)
    (by
      rw [ey]
      unfold Vec3.len
      rw [Real.sqrt_le_left (by norm_num)]
      norm_num)
    (driftSum.trans (by norm_num)) (by norm_num)
  refine ⟨x', y', h1, h2, ?_⟩
  rw [ex, ey] at h
  have e : dot3 (⟨3, 4, 5⟩ : Vec3 ℝ).fn (⟨19, 20, 21⟩ : Vec3 ℝ).fn = 242 := by
    simp only [dot3, Vec3.fn, Matrix.cons_val_zero, Matrix.cons_val_one, Matrix.cons_val]
    norm_num
  rw [e] at h
  refine h.trans ?_
  have h0 := driftSum_nonneg
  have h1 := driftSum
  generalize (driftActs.map (Act.error 0 (2 ^ 6))).sum = E at *
  norm_num at h1 ⊢
  nlinarith

/-- The triangle on the box, moved and saved. -/
example : ∃ x' y', alignedCol.vertexAt 0 0 0 0 = some x' ∧ alignedCol.vertexAt 0 0 0 1 = some y' ∧
    |norm3 (x'.real.fn - y'.real.fn) - norm3 (thirdVertex.real.fn - (⟨flt 17, flt 17, flt 18⟩ : Vec3 F64).real.fn)| ≤
      2 ^ (-14 : ℤ) := by
  have b : ∀ i ∈ [17, 18], |(flt i).value| ≤ 18 := by decide +kernel
  have b1 : |((flt 17).value : ℝ)| ≤ 18 := by exact_mod_cast b 17 (by simp)
  have b2 : |((flt 18).value : ℝ)| ≤ 18 := by exact_mod_cast b 18 (by simp)
  obtain ⟨x', y', h1, h2, h⟩ := C183_col (acts := [.move thirdStep, .store]) (i := 0) (j := 0) (k := 0) (n := 0)
    (i' := 0) (j' := 0) (k' := 0) (n' := 1) (x := thirdVertex) (y := ⟨flt 17, flt 17, flt 18⟩) (B := 2 ^ 6)
    boxCol_wf aligned_runs orderFine (by decide +kernel) (by decide +kernel)
    ⟨by decide +kernel, by decide +kernel, by decide +kernel⟩ ⟨by decide +kernel, by decide +kernel, by decide +kernel⟩
    (orderWithin thirdVertex_within) (orderWithin (flt_within b1 b1 b2)) (orderSum.trans (by norm_num)) (by norm_num)
  refine ⟨x', y', h1, h2, h.trans ((mul_le_mul_of_nonneg_left orderSum (by norm_num)).trans ?_)⟩
  norm_num

/-- The first and the third corner of `Box()`, moved and turned by the deprecated module. -/
example : ∃ x' y', vec3At turnedBox.vertices (0 * 12 + 0) = some x' ∧ vec3At turnedBox.vertices (2 * 12 + 0) = some y' ∧
    |norm3 (x'.real.fn - y'.real.fn) - norm3 (cornerBox.real.fn - (⟨hf (-1), hf 0, hf (-1)⟩ : Vec3 F64).real.fn)| ≤
      2 ^ (-14 : ℤ) := by
  have pre : boxActs <+: driftActs := ⟨[.update, .store], rfl⟩
  have hs : (boxActs.map (Act.error 0 (2 ^ 6))).sum ≤ 2 ^ (-15 : ℤ) := by
    refine le_trans ?_ driftSum
    simp only [boxActs, driftActs, List.map_cons, List.map_nil, List.sum_cons, List.sum_nil, Act.error]
    have : (0 : ℝ) ≤ 2 ^ (-22 : ℤ) * 2 ^ 6 + 2 ^ (-149 : ℤ) := by positivity
    linarith
  have hy : ∀ c, |(⟨hf (-1), hf 0, hf (-1)⟩ : Vec3 F64).real.fn c| ≤ 18 := by
    have h1 : |(hf (-1)).value| ≤ 18 := by decide +kernel
    have h2 : |(hf 0).value| ≤ 18 := by decide +kernel
    have h1' : |((hf (-1)).value : ℝ)| ≤ 18 := by exact_mod_cast h1
    have h2' : |((hf 0).value : ℝ)| ≤ 18 := by exact_mod_cast h2
    intro c
    fin_cases c
    exacts [h1', h2', h1']
  obtain ⟨x', y', h1, h2, h⟩ := @C183_deprecated quarterTurn 12 0 (2 ^ 6) boxActs ⟨0, 0, 2, 0⟩ cornerBox
    ⟨hf (-1), hf 0, hf (-1)⟩ { staticBox with indexList := false } turnedBox twinMesh 0 0 2 twinBox boxAttrs_apart
    turnedBox_runs (by norm_num) (fun s hs => driftFine s (pre.subset hs))
    (by
      intro s hs
      simp only [boxActs, List.mem_cons, List.not_mem_nil, or_false] at hs
      rcases hs with rfl | rfl
      · show ∀ t ∈ thirdStep.toList, t ≠ minusZero
        decide +kernel
      · trivial)
    ⟨[], _, rfl, by decide, by decide⟩ ⟨by decide +kernel, by decide, by decide +kernel⟩ (by decide +kernel)
    (by decide +kernel) ⟨by decide +kernel, by decide +kernel, by decide +kernel⟩
    ⟨by decide +kernel, by decide +kernel, by decide +kernel⟩
    (fun l hl => driftWithin (fun c => (cornerBox_le c).trans (by norm_num)) l (hl.trans pre))
    (fun l hl => driftWithin hy l (hl.trans pre)) (hs.trans (by norm_num)) (by norm_num)
  refine ⟨x', y', h1, h2, h.trans ((mul_le_mul_of_nonneg_left hs (by norm_num)).trans ?_)⟩
  norm_num

end

end Bf2
