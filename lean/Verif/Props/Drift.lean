import Verif.DriftLemmas
import Verif.Props.Readme

/-!
# C140: how far positions and normals drift over many edits

`translate`, `rotate`, `update_boundaries` and saving with loading again each round.  After any list of
such edits, every position, normal and tangent is within the sum of the single errors of what the same
edits give in exact arithmetic: rounding errors add up and are never multiplied.
-/

namespace Bf2

noncomputable section

section
variable [Libm F64] {vs : Nat} {ε B : ℝ} {m m' : Mesh F64} {p a : VAttr} {o v : Nat} {x : Vec3 F64}

/-- **C140.** Any list of moves, turns, bound updates and saves with loading again that raises nothing.
If the exactly edited vector is never longer than `B`, and the single errors add up to at most `B`, then
the vector in the mesh is finite and within that sum of the exactly edited one.  Positions follow moves
and turns, normals and tangents follow turns only. -/
theorem C140_drift {acts : List Act} (ord : Orderly vs m) (apart : m.vattrs.Pairwise (Apart m.vertformat))
    (runs : Runs m acts m') (small : ε ≤ 1) (fine : ∀ s ∈ acts, s.Fine ε)
    (first : FirstPosition m.vattrs p) (ha : a ∈ m.vattrs) (hv : VectorAttr a)
    (ho : StartsAt m.vertformat a o) (hx : vec3At m.vertices (v * vs + o) = some x) (fin : x.Finite)
    (within : ∀ pre, pre <+: acts → norm3 (exactAll (decide (a = p)) pre x.real.fn) ≤ B)
    (total : (acts.map (Act.error ε B)).sum ≤ B) (big : B ≤ 2 ^ 126) :
    ∃ x', vec3At m'.vertices (v * vs + o) = some x' ∧ x'.Finite ∧
      norm3 (x'.real.fn - exactAll (decide (a = p)) acts x.real.fn) ≤ (acts.map (Act.error ε B)).sum := by
  have hc : Close 0 x x.real.fn := ⟨fin, by rw [sub_self]; simp [norm3]⟩
  obtain ⟨x', h1, h2⟩ := runs_close ord apart runs small fine first ha hv ho hx hc within
    (by rw [zero_add]; exact total) big
  rw [zero_add] at h2
  exact ⟨x', h1, h2.fin, h2.near⟩

omit [Libm F64] in
/-- In exact arithmetic no edit changes the length of a normal or tangent. -/
theorem exactAll_length (acts : List Act) (X : Fin 3 → ℝ) : norm3 (exactAll false acts X) = norm3 X := by
  induction acts generalizing X with
  | nil => rfl
  | cons s ss ih =>
    refine (ih (s.exact false X)).trans ?_
    cases s with
    | turn y q r => exact norm3_rot _ _ _ _
    | _ => rfl

/-- **C140.** A normal or tangent of length at most `B` has kept its length up to the sum of the errors,
wherever the mesh was moved. -/
theorem C140_normals {acts : List Act} (ord : Orderly vs m)
    (apart : m.vattrs.Pairwise (Apart m.vertformat)) (runs : Runs m acts m') (small : ε ≤ 1)
    (fine : ∀ s ∈ acts, s.Fine ε) (first : FirstPosition m.vattrs p) (ha : a ∈ m.vattrs)
    (hv : VectorAttr a) (other : a ≠ p) (ho : StartsAt m.vertformat a o)
    (hx : vec3At m.vertices (v * vs + o) = some x) (fin : x.Finite) (len : x.real.len ≤ B)
    (total : (acts.map (Act.error ε B)).sum ≤ B) (big : B ≤ 2 ^ 126) :
    ∃ x', vec3At m'.vertices (v * vs + o) = some x' ∧ x'.Finite ∧
      |x'.real.len - x.real.len| ≤ (acts.map (Act.error ε B)).sum := by
  have hap : decide (a = p) = false := decide_eq_false other
  obtain ⟨x', h1, h2, h3⟩ := C140_drift ord apart runs small fine first ha hv ho hx fin
    (fun pre _ => by rw [hap, exactAll_length]; exact len) total big
  refine ⟨x', h1, h2, ?_⟩
  rw [hap] at h3
  have e := exactAll_length acts x.real.fn
  rw [norm3_fn] at e
  generalize exactAll false acts x.real.fn = Y at *
  have u1 := norm3_add (x'.real.fn - Y) Y
  have u2 := norm3_add (-(x'.real.fn - Y)) x'.real.fn
  have u3 : norm3 (-(x'.real.fn - Y)) = norm3 (x'.real.fn - Y) := by
    unfold norm3
    simp only [Pi.neg_apply, neg_sq]
  rw [sub_add_cancel, norm3_fn] at u1
  rw [u3, neg_sub, sub_add_cancel, norm3_fn] at u2
  rw [abs_le]
  constructor <;> linarith

/-- **C140.** Moved there and back: positions are within `2^-50 B + 2^-1073` of where they were, if they
were and are no farther than `B` from the origin. -/
theorem C140_there_and_back {d : Vec3 F64} (ord : Orderly vs m)
    (apart : m.vattrs.Pairwise (Apart m.vertformat))
    (runs : Runs m [.move d, .move ⟨d.x.negate, d.y.negate, d.z.negate⟩] m')
    (finite : d.Finite) (first : FirstPosition m.vattrs p) (hp : VectorAttr p)
    (ho : StartsAt m.vertformat p o) (hx : vec3At m.vertices (v * vs + o) = some x) (fin : x.Finite)
    (here : x.real.len ≤ B) (there : norm3 (x.real.fn + d.real.fn) ≤ B)
    (room : 2 ^ (-1072 : ℤ) ≤ B) (big : B ≤ 2 ^ 126) :
    ∃ x', vec3At m'.vertices (v * vs + o) = some x' ∧ x'.Finite ∧
      norm3 (x'.real.fn - x.real.fn) ≤ 2 ^ (-50 : ℤ) * B + 2 ^ (-1073 : ℤ) := by
  have pin : p ∈ m.vattrs := by
    obtain ⟨pre, post, e, -⟩ := first
    rw [e]
    simp
  have neg : (⟨d.x.negate, d.y.negate, d.z.negate⟩ : Vec3 F64).real.fn = -d.real.fn := by
    ext i
    fin_cases i <;> simp [Vec3.real, Vec3.fn, negate_value]
  have nfin : ∀ t : F64, t.negate.isFin = t.isFin := fun t => by cases t; rfl
  have back : x.real.fn + d.real.fn + -d.real.fn = x.real.fn := by abel
  have sum : ([Act.move d, .move ⟨d.x.negate, d.y.negate, d.z.negate⟩].map (Act.error 1 B)).sum =
      2 ^ (-50 : ℤ) * B + 2 ^ (-1073 : ℤ) := by
    simp only [List.map_cons, List.map_nil, List.sum_cons, List.sum_nil, Act.error]
    rw [show (-50 : ℤ) = -51 + 1 by norm_num, show (-1073 : ℤ) = -1074 + 1 by norm_num,
      zpow_add₀ (by norm_num : (2 : ℝ) ≠ 0), zpow_add₀ (by norm_num : (2 : ℝ) ≠ 0)]
    ring
  obtain ⟨x', h1, h2, h3⟩ := C140_drift (ε := 1) (B := B) ord apart runs le_rfl
    (by
      intro s hs
      simp only [List.mem_cons, List.not_mem_nil, or_false] at hs
      rcases hs with rfl | rfl
      · exact finite
      · exact ⟨(nfin _).trans finite.1, (nfin _).trans finite.2.1, (nfin _).trans finite.2.2⟩)
    first pin hp ho hx fin
    (by
      intro pre hpre
      have : pre = [] ∨ pre = [.move d] ∨
          pre = [.move d, .move ⟨d.x.negate, d.y.negate, d.z.negate⟩] := by
        rcases pre with _ | ⟨s, _ | ⟨t, _ | ⟨u, pre⟩⟩⟩
        · exact .inl rfl
        · simp only [List.cons_prefix_cons] at hpre
          obtain ⟨rfl, -⟩ := hpre
          exact .inr (.inl rfl)
        · simp only [List.cons_prefix_cons] at hpre
          obtain ⟨rfl, rfl, -⟩ := hpre
          exact .inr (.inr rfl)
        · simp only [List.cons_prefix_cons, List.prefix_nil] at hpre
          exact absurd hpre.2.2 (by simp)
      rcases this with rfl | rfl | rfl
      · exact here
      · simpa [exactAll, Act.exact] using there
      · simp only [exactAll, List.foldl_cons, List.foldl_nil, Act.exact, decide_true, if_true]
        rw [neg, back]
        exact here)
    (by
      rw [sum]
      have e1 : (2 : ℝ) ^ (-1072 : ℤ) = 2 ^ (-1073 : ℤ) * 2 := by
        rw [show (-1072 : ℤ) = -1073 + 1 by norm_num, zpow_add₀ (by norm_num : (2 : ℝ) ≠ 0), zpow_one]
      have e2 : (2 : ℝ) ^ (-50 : ℤ) ≤ 1 / 2 := by norm_num
      have h0 : 0 ≤ B := (len_nonneg x.real).trans here
      rw [e1] at room
      generalize (2 : ℝ) ^ (-1073 : ℤ) = t at *
      generalize (2 : ℝ) ^ (-50 : ℤ) = u at *
      nlinarith)
    big
  rw [sum] at h3
  refine ⟨x', h1, h2, ?_⟩
  simp only [exactAll, List.foldl_cons, List.foldl_nil, Act.exact, decide_true, if_true] at h3
  rw [neg, back] at h3
  exact h3

/-- **C140.** Turned about the vertical by an angle and by its negative: every position, normal and
tangent of length at most `B` is within `8 (15 ε + 2^-47) B + 2^-1068` of where it was. -/
theorem C140_turned_back {y z : F64} (zero : z.value = 0) (ord : Orderly vs m)
    (apart : m.vattrs.Pairwise (Apart m.vertformat))
    (runs : Runs m [.turn y z z, .turn y.negate z z] m') (little : 15 * ε ≤ 2 ^ (-5 : ℤ))
    (hy : TrigWithin ε y) (hn : TrigWithin ε y.negate) (hz : TrigWithin ε z)
    (first : FirstPosition m.vattrs p) (ha : a ∈ m.vattrs) (hv : VectorAttr a)
    (ho : StartsAt m.vertformat a o) (hx : vec3At m.vertices (v * vs + o) = some x) (fin : x.Finite)
    (here : x.real.len ≤ B) (room : 2 ^ (-1067 : ℤ) ≤ B) (big : B ≤ 2 ^ 126) :
    ∃ x', vec3At m'.vertices (v * vs + o) = some x' ∧ x'.Finite ∧
      norm3 (x'.real.fn - x.real.fn) ≤ 8 * (15 * ε + 2 ^ (-47 : ℤ)) * B + 2 ^ (-1068 : ℤ) := by
  have inv : ∀ X, (rotMat y.negate.value z.value z.value).mulVec
      ((rotMat y.value z.value z.value).mulVec X) = X := by
    intro X
    have h := Real.cos_sq_add_sin_sq (deg y.value)
    rw [zero, negate_value, Matrix.mulVec_mulVec]
    have e : rotMat ((-y.value : ℚ) : ℝ) ((0 : ℚ) : ℝ) ((0 : ℚ) : ℝ) *
        rotMat (y.value : ℝ) ((0 : ℚ) : ℝ) ((0 : ℚ) : ℝ) = 1 := by
      unfold rotMat yawMat pitchMat rollMat deg at *
      push_cast
      simp only [zero_mul, neg_mul, Real.cos_zero, Real.sin_zero, Real.cos_neg, Real.sin_neg]
      ext i j
      fin_cases i <;> fin_cases j <;> simp [Matrix.mul_apply, Fin.sum_univ_three] <;> nlinarith
    rw [e, Matrix.one_mulVec]
  have sum : ([Act.turn y z z, .turn y.negate z z].map (Act.error ε B)).sum =
      8 * (15 * ε + 2 ^ (-47 : ℤ)) * B + 2 ^ (-1068 : ℤ) := by
    simp only [List.map_cons, List.map_nil, List.sum_cons, List.sum_nil, Act.error]
    rw [show (-1068 : ℤ) = -1069 + 1 by norm_num, zpow_add₀ (by norm_num : (2 : ℝ) ≠ 0)]
    ring
  have all : ∀ pos pre, pre <+: [Act.turn y z z, .turn y.negate z z] →
      norm3 (exactAll pos pre x.real.fn) = x.real.len := by
    intro pos pre hpre
    rcases pre with _ | ⟨s, _ | ⟨t, _ | ⟨u, pre⟩⟩⟩
    · rfl
    · simp only [List.cons_prefix_cons] at hpre
      obtain ⟨rfl, -⟩ := hpre
      exact norm3_rot _ _ _ _
    · simp only [List.cons_prefix_cons] at hpre
      obtain ⟨rfl, rfl, -⟩ := hpre
      exact (norm3_rot _ _ _ _).trans (norm3_rot _ _ _ _)
    · simp only [List.cons_prefix_cons, List.prefix_nil] at hpre
      exact absurd hpre.2.2 (by simp)
  have h0 : 0 ≤ B := (len_nonneg x.real).trans here
  obtain ⟨x', h1, h2, h3⟩ := C140_drift (ε := ε) (B := B) ord apart runs
    (by norm_num at little; linarith)
    (by
      intro s hs
      simp only [List.mem_cons, List.not_mem_nil, or_false] at hs
      rcases hs with rfl | rfl
      · exact ⟨hy, hz, hz⟩
      · exact ⟨hn, hz, hz⟩)
    first ha hv ho hx fin (fun pre hpre => by rw [all _ _ hpre]; exact here)
    (by
      rw [sum]
      have e1 : (2 : ℝ) ^ (-1067 : ℤ) = 2 ^ (-1068 : ℤ) * 2 := by
        rw [show (-1067 : ℤ) = -1068 + 1 by norm_num, zpow_add₀ (by norm_num : (2 : ℝ) ≠ 0), zpow_one]
      have e2 : 8 * (15 * ε + 2 ^ (-47 : ℤ)) ≤ 1 / 2 := by
        norm_num at little ⊢
        linarith
      have e3 := mul_le_mul_of_nonneg_right e2 h0
      rw [e1] at room
      generalize (2 : ℝ) ^ (-1068 : ℤ) = t at *
      generalize 8 * (15 * ε + 2 ^ (-47 : ℤ)) * B = w at *
      clear big e1 e2 little sum
      linarith)
    big
  rw [sum] at h3
  refine ⟨x', h1, h2, ?_⟩
  have e : exactAll (decide (a = p)) [Act.turn y z z, .turn y.negate z z] x.real.fn = x.real.fn := inv _
  rw [e] at h3
  exact h3

end

end

/-! ## A sample -/

/-- One third, one third, one third. -/
def thirdStep : Vec3 F64 := ⟨F64.ofRat false (1 / 3), F64.ofRat false (1 / 3), F64.ofRat false (1 / 3)⟩

def driftA : Mesh F64 := (translate plainBox [thirdStep.x, thirdStep.y, thirdStep.z]).1
def driftB : Mesh F64 := (@rotate F64 _ quarterTurn driftA [flt 90, flt 90, flt 90]).1
def driftC : Mesh F64 := (updateBoundaries driftB).1
def driftD : Mesh F64 := driftC.map fun x => unpackF (packF x)

def driftActs : List Act := [.move thirdStep, .turn (flt 90) (flt 90) (flt 90), .update, .store]

theorem drift_runs : @Runs quarterTurn plainBox driftActs driftD := by
  let _ := quarterTurn
  refine .cons (m1 := driftA) (.move ?_) (.cons (m1 := driftB) (.turn ?_) (.cons (m1 := driftC) (.update ?_)
    (.cons (m1 := driftD) (.store (pl := win) (file := (exportMesh win driftC).bytes) ?_ ?_) .nil)))
  · exact Prod.ext rfl (by decide +kernel)
  · exact Prod.ext rfl (by decide +kernel)
  · exact Prod.ext rfl (by decide +kernel)
  · have : (exportMesh win driftC).err = none := by decide +kernel
    rcases h : exportMesh win driftC with ⟨b, e⟩
    rw [h] at this
    cases this
    rfl
  · decide +kernel

noncomputable section

/-- The third vertex, at (16, 17, 18). -/
def thirdVertex : Vec3 F64 := ⟨flt 16, flt 17, flt 18⟩

theorem thirdVertex_fn : thirdVertex.real.fn = ![16, 17, 18] := by
  have h0 : (flt 16).value = 16 := by decide +kernel
  have h1 : (flt 17).value = 17 := by decide +kernel
  have h2 : (flt 18).value = 18 := by decide +kernel
  unfold Vec3.real Vec3.fn thirdVertex
  rw [h0, h1, h2]
  norm_num

theorem thirdStep_le (i : Fin 3) : |thirdStep.real.fn i| ≤ 1 := by
  have h : |(F64.ofRat false (1 / 3)).value| ≤ 1 := by decide +kernel
  have h' : |((F64.ofRat false (1 / 3)).value : ℝ)| ≤ 1 := by exact_mod_cast h
  fin_cases i <;> exact h'

theorem third_lengths : norm3 thirdVertex.real.fn ≤ 2 ^ 6 ∧
    norm3 (thirdVertex.real.fn + thirdStep.real.fn) ≤ 2 ^ 6 := by
  constructor
  · refine (norm3_le (β := 18) fun i => ?_).trans (by norm_num)
    rw [thirdVertex_fn]
    fin_cases i <;> simp <;> norm_num
  · refine (norm3_le (β := 19) fun i => ?_).trans (by norm_num)
    refine (abs_add_le _ _).trans ?_
    have := thirdStep_le i
    have h2 : |thirdVertex.real.fn i| ≤ 18 := by
      rw [thirdVertex_fn]
      fin_cases i <;> simp <;> norm_num
    linarith

theorem plainBox_first : FirstPosition plainBox.vattrs ⟨0, 0, 2, 0⟩ := ⟨[], _, rfl, by decide, by decide⟩

theorem plainBox_apart : plainBox.vattrs.Pairwise (Apart plainBox.vertformat) :=
  rotatable_apart (flt 0) []

/-- Moved by a third in every direction, turned by three right angles, bounds updated, saved and loaded:
the third vertex is within `2^-15` of the exactly moved and turned point. -/
example : ∃ x', vec3At driftD.vertices (2 * 8 + 0) = some x' ∧ x'.Finite ∧
    norm3 (x'.real.fn - (rotMat ((flt 90).value : ℝ) ((flt 90).value : ℝ) ((flt 90).value : ℝ)).mulVec
      (thirdVertex.real.fn + thirdStep.real.fn)) ≤ 2 ^ (-15 : ℤ) := by
  have t1 : (2 : ℝ) ^ (-1074 : ℤ) ≤ 2 ^ (-60 : ℤ) := zpow_le_zpow_right₀ (by norm_num) (by norm_num)
  have t2 : (2 : ℝ) ^ (-1069 : ℤ) ≤ 2 ^ (-60 : ℤ) := zpow_le_zpow_right₀ (by norm_num) (by norm_num)
  have t3 : (2 : ℝ) ^ (-149 : ℤ) ≤ 2 ^ (-60 : ℤ) := zpow_le_zpow_right₀ (by norm_num) (by norm_num)
  have hs : (driftActs.map (Act.error 0 (2 ^ 6))).sum ≤ 2 ^ (-15 : ℤ) := by
    simp only [driftActs, List.map_cons, List.map_nil, List.sum_cons, List.sum_nil, Act.error]
    generalize (2 : ℝ) ^ (-1074 : ℤ) = a at *
    generalize (2 : ℝ) ^ (-1069 : ℤ) = b at *
    generalize (2 : ℝ) ^ (-149 : ℤ) = c at *
    norm_num at *
    linarith
  obtain ⟨l1, l2⟩ := third_lengths
  obtain ⟨x', h1, h2, h3⟩ := @C140_drift quarterTurn 8 0 (2 ^ 6) plainBox driftD ⟨0, 0, 2, 0⟩ ⟨0, 0, 2, 0⟩
    0 2 thirdVertex driftActs plainBox_orderly plainBox_apart drift_runs (by norm_num)
    (by
      intro s hs
      simp only [driftActs, List.mem_cons, List.not_mem_nil, or_false] at hs
      rcases hs with rfl | rfl | rfl | rfl
      · exact ⟨by decide +kernel, by decide +kernel, by decide +kernel⟩
      · exact ⟨quarterTurn_within, quarterTurn_within, quarterTurn_within⟩
      · trivial
      · trivial)
    plainBox_first (by decide +kernel) (by decide) (by decide +kernel) (by decide +kernel)
    ⟨by decide +kernel, by decide +kernel, by decide +kernel⟩
    (by
      intro pre hpre
      rw [show decide ((⟨0, 0, 2, 0⟩ : VAttr) = ⟨0, 0, 2, 0⟩) = true from rfl]
      rcases pre with _ | ⟨s, _ | ⟨t, _ | ⟨u, _ | ⟨w, _ | ⟨q, pre⟩⟩⟩⟩⟩ <;>
        simp only [driftActs, List.cons_prefix_cons, List.prefix_nil, reduceCtorEq, and_false] at hpre
      · exact l1
      · obtain ⟨rfl, -⟩ := hpre
        exact l2
      · obtain ⟨rfl, rfl, -⟩ := hpre
        exact (norm3_rot _ _ _ _).trans_le l2
      · obtain ⟨rfl, rfl, rfl, -⟩ := hpre
        exact (norm3_rot _ _ _ _).trans_le l2
      · obtain ⟨rfl, rfl, rfl, rfl, -⟩ := hpre
        exact (norm3_rot _ _ _ _).trans_le l2)
    (hs.trans (by norm_num)) (by norm_num)
  exact ⟨x', h1, h2, h3.trans hs⟩

/-- Its normal, (19, 20, 21), keeps its length up to `2^-15`. -/
example : ∃ x', vec3At driftD.vertices (2 * 8 + 3) = some x' ∧ x'.Finite ∧
    |x'.real.len - (⟨flt 19, flt 20, flt 21⟩ : Vec3 F64).real.len| ≤
      (driftActs.map (Act.error 0 (2 ^ 6))).sum := by
  have t1 : (2 : ℝ) ^ (-1074 : ℤ) ≤ 2 ^ (-60 : ℤ) := zpow_le_zpow_right₀ (by norm_num) (by norm_num)
  have t2 : (2 : ℝ) ^ (-1069 : ℤ) ≤ 2 ^ (-60 : ℤ) := zpow_le_zpow_right₀ (by norm_num) (by norm_num)
  have t3 : (2 : ℝ) ^ (-149 : ℤ) ≤ 2 ^ (-60 : ℤ) := zpow_le_zpow_right₀ (by norm_num) (by norm_num)
  have hs : (driftActs.map (Act.error 0 (2 ^ 6))).sum ≤ 2 ^ 6 := by
    simp only [driftActs, List.map_cons, List.map_nil, List.sum_cons, List.sum_nil, Act.error]
    generalize (2 : ℝ) ^ (-1074 : ℤ) = a at *
    generalize (2 : ℝ) ^ (-1069 : ℤ) = b at *
    generalize (2 : ℝ) ^ (-149 : ℤ) = c at *
    norm_num at *
    linarith
  have h0 : (flt 19).value = 19 := by decide +kernel
  have h1 : (flt 20).value = 20 := by decide +kernel
  have h2 : (flt 21).value = 21 := by decide +kernel
  exact @C140_normals quarterTurn 8 0 (2 ^ 6) plainBox driftD ⟨0, 0, 2, 0⟩ ⟨0, 12, 2, 3⟩
    3 2 _ driftActs plainBox_orderly plainBox_apart drift_runs (by norm_num)
    (by
      intro s hs
      simp only [driftActs, List.mem_cons, List.not_mem_nil, or_false] at hs
      rcases hs with rfl | rfl | rfl | rfl
      · exact ⟨by decide +kernel, by decide +kernel, by decide +kernel⟩
      · exact ⟨quarterTurn_within, quarterTurn_within, quarterTurn_within⟩
      · trivial
      · trivial)
    plainBox_first (by decide +kernel) (by decide) (by decide) (by decide +kernel) (by decide +kernel)
    ⟨by decide +kernel, by decide +kernel, by decide +kernel⟩
    (by
      unfold Vec3.len Vec3.real
      rw [Real.sqrt_le_left (by norm_num)]
      simp only [h0, h1, h2]
      norm_num)
    hs (by norm_num)

/-- The third vertex moved by a third and back. -/
example [Libm F64] : ∃ m', Runs plainBox [.move thirdStep,
      .move ⟨thirdStep.x.negate, thirdStep.y.negate, thirdStep.z.negate⟩] m' ∧
    ∃ x', vec3At m'.vertices (2 * 8 + 0) = some x' ∧ x'.Finite ∧
      norm3 (x'.real.fn - thirdVertex.real.fn) ≤ 2 ^ (-50 : ℤ) * 2 ^ 6 + 2 ^ (-1073 : ℤ) := by
  have r : Runs plainBox [.move thirdStep,
      .move ⟨thirdStep.x.negate, thirdStep.y.negate, thirdStep.z.negate⟩]
      (translate driftA [thirdStep.x.negate, thirdStep.y.negate, thirdStep.z.negate]).1 :=
    .cons (m1 := driftA) (.move (Prod.ext rfl (by decide +kernel)))
      (.cons (.move (Prod.ext rfl (by decide +kernel))) .nil)
  refine ⟨_, r, ?_⟩
  exact C140_there_and_back plainBox_orderly plainBox_apart r
    ⟨by decide +kernel, by decide +kernel, by decide +kernel⟩ plainBox_first (by decide) (by decide +kernel)
    (by decide +kernel) ⟨by decide +kernel, by decide +kernel, by decide +kernel⟩ third_lengths.1
    third_lengths.2 ((zpow_le_zpow_right₀ (by norm_num) (by norm_num)).trans
      (show (2 : ℝ) ^ (0 : ℤ) ≤ 2 ^ 6 by norm_num)) (by norm_num)

/-- The third vertex turned by 30 degrees and back, with an accurate library. -/
example : ∃ m', @Runs goodLibm plainBox [.turn (flt 30) (flt 0) (flt 0),
      .turn (flt 30).negate (flt 0) (flt 0)] m' ∧
    ∃ x', vec3At m'.vertices (2 * 8 + 0) = some x' ∧ x'.Finite ∧
      norm3 (x'.real.fn - thirdVertex.real.fn) ≤
        8 * (15 * 2 ^ (-52 : ℤ) + 2 ^ (-47 : ℤ)) * 2 ^ 6 + 2 ^ (-1068 : ℤ) := by
  let _ := goodLibm
  obtain ⟨l, h1, -, -⟩ := @rotate_near goodLibm 8 plainBox plainBox_orderly.verts plainBox_orderly.vectors
    plainBox_apart (2 ^ (-52 : ℤ)) (by norm_num) _ _ _ (goodLibm_within (flt 30)) (goodLibm_within (flt 0))
    (goodLibm_within (flt 0)) []
  have ord := (step_kept plainBox_orderly (Step.rotate [flt 30, flt 0, flt 0])).1
  rw [h1] at ord
  obtain ⟨l', h1', -, -⟩ := @rotate_near goodLibm 8 { plainBox with vertices := l } ord.verts ord.vectors
    plainBox_apart (2 ^ (-52 : ℤ)) (by norm_num) _ _ _ (goodLibm_within (flt 30).negate)
    (goodLibm_within (flt 0)) (goodLibm_within (flt 0)) []
  have r : Runs plainBox [.turn (flt 30) (flt 0) (flt 0), .turn (flt 30).negate (flt 0) (flt 0)] _ :=
    .cons (.turn h1) (.cons (.turn h1') .nil)
  refine ⟨_, r, ?_⟩
  exact C140_turned_back (a := ⟨0, 0, 2, 0⟩) (by decide +kernel) plainBox_orderly plainBox_apart r (by norm_num)
    (goodLibm_within _) (goodLibm_within _) (goodLibm_within _) plainBox_first (by decide +kernel) (by decide)
    (by decide +kernel) (by decide +kernel) ⟨by decide +kernel, by decide +kernel, by decide +kernel⟩
    third_lengths.1 ((zpow_le_zpow_right₀ (by norm_num) (by norm_num)).trans
      (show (2 : ℝ) ^ (0 : ℤ) ≤ 2 ^ 6 by norm_num)) (by norm_num)

end

end Bf2
