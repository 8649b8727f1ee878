import Verif.OrderLemmas
import Verif.Props.Align

/-!
# C182: the order of vertices along an axis

`translate` (`visiblemesh.py`, `modcolmesh.py:461-466`) adds the same number to a coordinate of each vertex, and
saving rounds each to single precision.  Both keep the order, so no face is turned over along an axis, and a
flat side that is parallel to two axes stays flat.  Vertices can fall together, but only as far as the
roundings allow.
-/

namespace Bf2

theorem fine_col {acts : List Act} (fine : ∀ d, Act.move d ∈ acts → d.Finite) :
    ∀ s ∈ acts.filterMap Act.col, s.Fine := by
  intro s hs
  obtain ⟨a, ha, e⟩ := List.mem_filterMap.1 hs
  cases a <;> simp only [Act.col, Option.some.injEq, reduceCtorEq] at e
  · subst e
    exact fine _ ha
  · subst e
    trivial

/-- **C182.** Moves, updates of the bounds and saves of a visible mesh: a coordinate of a vertex that was at most
that of another vertex still is, if both are finite in the end. -/
theorem C182_order [Libm F64] {vs o v w : Nat} {m m' : Mesh F64} {p : VAttr} {acts : List Act} {x y : Vec3 F64}
    (ord : Orderly vs m) (first : FirstPosition m.vattrs p) (ho : StartsAt m.vertformat p o)
    (noTurn : ∀ a b c, Act.turn a b c ∉ acts) (fine : ∀ d, Act.move d ∈ acts → d.Finite) (runs : Runs m acts m')
    (hx : vec3At m.vertices (v * vs + o) = some x) (hy : vec3At m.vertices (w * vs + o) = some y) :
    ∃ x' y', vec3At m'.vertices (v * vs + o) = some x' ∧ vec3At m'.vertices (w * vs + o) = some y' ∧
      ∀ c : Fin 3, (x.comp c = y.comp c → x'.comp c = y'.comp c) ∧
        ((x'.comp c).isFin = true → (y'.comp c).isFin = true → (x.comp c).value ≤ (y.comp c).value →
          (x'.comp c).value ≤ (y'.comp c).value) := by
  refine ⟨_, _, runs.position noTurn ord first ho hx, runs.position noTurn ord first ho hy, fun c => ?_⟩
  have hf := fine_col fine
  rw [all_comp, all_comp]
  exact ⟨fun e => by rw [e], fun h1 h2 h => all_mono hf h1 h2 h⟩

/-- **C182.** The same for two vertices anywhere in a collision mesh. -/
theorem C182_col {acts : List ColAct} {m m' : ColMesh F64 ColFace} (wf : ColWF m) (runs : ColRuns m acts m')
    (fine : ∀ s ∈ acts, s.Fine) {i j k n i' j' k' n' : Nat} {x y : Vec3 F64}
    (hx : m.vertexAt i j k n = some x) (hy : m.vertexAt i' j' k' n' = some y) :
    ∃ x' y', m'.vertexAt i j k n = some x' ∧ m'.vertexAt i' j' k' n' = some y' ∧
      ∀ c : Fin 3, (x.comp c = y.comp c → x'.comp c = y'.comp c) ∧
        ((x'.comp c).isFin = true → (y'.comp c).isFin = true → (x.comp c).value ≤ (y.comp c).value →
          (x'.comp c).value ≤ (y'.comp c).value) := by
  refine ⟨_, _, by rw [runs.vertex wf, hx]; rfl, by rw [runs.vertex wf, hy]; rfl, fun c => ?_⟩
  rw [all_comp, all_comp]
  exact ⟨fun e => by rw [e], fun h1 h2 h => all_mono fine h1 h2 h⟩

noncomputable section

/-- **C182.** How far two vertices of a visible mesh are apart along an axis changes by at most twice the sum of
the single errors; updates of the bounds add nothing. -/
theorem C182_gap_visible [Libm F64] {vs o v w : Nat} {m m' : Mesh F64} {p : VAttr} {acts : List Act} {x y : Vec3 F64}
    {B : ℝ} (ord : Orderly vs m) (first : FirstPosition m.vattrs p) (ho : StartsAt m.vertformat p o)
    (noTurn : ∀ a b c, Act.turn a b c ∉ acts) (fine : ∀ d, Act.move d ∈ acts → d.Finite) (runs : Runs m acts m')
    (hx : vec3At m.vertices (v * vs + o) = some x) (hy : vec3At m.vertices (w * vs + o) = some y)
    (fx : x.Finite) (fy : y.Finite)
    (wx : ∀ pre, pre <+: acts.filterMap Act.col → norm3 (exactAll true (pre.map ColAct.act) x.real.fn) ≤ B)
    (wy : ∀ pre, pre <+: acts.filterMap Act.col → norm3 (exactAll true (pre.map ColAct.act) y.real.fn) ≤ B)
    (total : ((acts.filterMap Act.col).map fun s => s.act.error 0 B).sum ≤ B) (big : B ≤ 2 ^ 126) :
    ∃ x' y', vec3At m'.vertices (v * vs + o) = some x' ∧ vec3At m'.vertices (w * vs + o) = some y' ∧ ∀ c : Fin 3,
      |(x'.real.fn c - y'.real.fn c) - (x.real.fn c - y.real.fn c)| ≤
        2 * ((acts.filterMap Act.col).map fun s => s.act.error 0 B).sum :=
  ⟨_, _, runs.position noTurn ord first ho hx, runs.position noTurn ord first ho hy,
    all_gap (fine_col fine) fx fy wx wy total big⟩

/-- **C182.** How far two vertices of a collision mesh are apart along an axis changes by at most twice the sum of the single
errors, so vertices that were farther apart than that stay apart. -/
theorem C182_gap {acts : List ColAct} {m m' : ColMesh F64 ColFace} {B : ℝ} (wf : ColWF m) (runs : ColRuns m acts m')
    (fine : ∀ s ∈ acts, s.Fine) {i j k n i' j' k' n' : Nat} {x y : Vec3 F64}
    (hx : m.vertexAt i j k n = some x) (hy : m.vertexAt i' j' k' n' = some y) (fx : x.Finite) (fy : y.Finite)
    (wx : ∀ pre, pre <+: acts → norm3 (exactAll true (pre.map ColAct.act) x.real.fn) ≤ B)
    (wy : ∀ pre, pre <+: acts → norm3 (exactAll true (pre.map ColAct.act) y.real.fn) ≤ B)
    (total : (acts.map fun s => s.act.error 0 B).sum ≤ B) (big : B ≤ 2 ^ 126) :
    ∃ x' y', m'.vertexAt i j k n = some x' ∧ m'.vertexAt i' j' k' n' = some y' ∧ ∀ c : Fin 3,
      |(x'.real.fn c - y'.real.fn c) - (x.real.fn c - y.real.fn c)| ≤
        2 * (acts.map fun s => s.act.error 0 B).sum :=
  ⟨_, _, by rw [runs.vertex wf, hx]; rfl, by rw [runs.vertex wf, hy]; rfl,
    all_gap fine fx fy wx wy total big⟩

end

/-! ## Vertices that fall together -/

/-- Far away from the box. -/
def farStep : Vec3 F64 := ⟨flt (2 ^ 60), flt (2 ^ 60), flt (2 ^ 60)⟩

/-- And back. -/
def farBack : Vec3 F64 := ⟨F64.ofRat true (-2 ^ 60), F64.ofRat true (-2 ^ 60), F64.ofRat true (-2 ^ 60)⟩

/-- **C182.** The order is not kept strictly: two vertices of the box with different coordinates on each axis
have the same position after a move, and moving back does not part them. -/
theorem C182_collapse [Libm F64] : ∃ m' m'' : Mesh F64,
    Runs plainBox [.move farStep] m' ∧
    Runs plainBox [.move farStep, .move farBack] m'' ∧
    (∃ x y, vec3At plainBox.vertices (0 * 8 + 0) = some x ∧ vec3At plainBox.vertices (2 * 8 + 0) = some y ∧
      ∀ c : Fin 3, (x.comp c).value < (y.comp c).value) ∧
    vec3At m'.vertices (0 * 8 + 0) = vec3At m'.vertices (2 * 8 + 0) ∧
    vec3At m''.vertices (0 * 8 + 0) = vec3At m''.vertices (2 * 8 + 0) := by
  let a := (translate plainBox [farStep.x, farStep.y, farStep.z]).1
  refine ⟨a, (translate a [farBack.x, farBack.y, farBack.z]).1,
    .cons (.move (Prod.ext rfl (by decide +kernel))) .nil,
    .cons (m1 := a) (.move (Prod.ext rfl (by decide +kernel))) (.cons (.move (Prod.ext rfl (by decide +kernel))) .nil),
    ⟨⟨flt 0, flt 1, flt 2⟩, ⟨flt 16, flt 17, flt 18⟩, by decide +kernel, by decide +kernel, by decide +kernel⟩,
    by decide +kernel, by decide +kernel⟩

/-! ## The cases are met -/

theorem orderRuns [Libm F64] :
    Runs plainBox alignActs ((updateBoundaries driftA).1.map fun x => unpackF (packF x)) := by
  refine .cons (m1 := driftA) (.move (Prod.ext rfl (by decide +kernel))) (.cons (.update (Prod.ext rfl
    (by decide +kernel))) (.cons (.store (pl := win) (file := (exportMesh win (updateBoundaries driftA).1).bytes)
      ?_ ?_) .nil))
  · have : (exportMesh win (updateBoundaries driftA).1).err = none := by decide +kernel
    rw [← this]
  · decide +kernel

theorem alignFine : ∀ d, Act.move d ∈ alignActs → d.Finite := by
  intro d hd
  simp only [alignActs, List.mem_cons, Act.move.injEq, reduceCtorEq, List.not_mem_nil, or_false] at hd
  subst hd
  exact ⟨by decide +kernel, by decide +kernel, by decide +kernel⟩

theorem orderSum : ([ColAct.move thirdStep, .store].map fun s => s.act.error 0 (2 ^ 6)).sum ≤ 2 ^ (-15 : ℤ) := by
  have t1 : (2 : ℝ) ^ (-1074 : ℤ) ≤ 2 ^ (-60 : ℤ) := zpow_le_zpow_right₀ (by norm_num) (by norm_num)
  have t3 : (2 : ℝ) ^ (-149 : ℤ) ≤ 2 ^ (-60 : ℤ) := zpow_le_zpow_right₀ (by norm_num) (by norm_num)
  simp only [List.map_cons, List.map_nil, List.sum_cons, List.sum_nil, ColAct.act, Act.error]
  generalize (2 : ℝ) ^ (-1074 : ℤ) = a at *
  generalize (2 : ℝ) ^ (-149 : ℤ) = c at *
  norm_num at *
  linarith

/-- Points whose coordinates are at most 18 stay within 64 of the origin. -/
theorem orderWithin {X : Fin 3 → ℝ} (b : ∀ i, |X i| ≤ 18) (pre : List ColAct)
    (hpre : pre <+: [ColAct.move thirdStep, .store]) : norm3 (exactAll true (pre.map ColAct.act) X) ≤ 2 ^ 6 := by
  have l1 : norm3 X ≤ 2 ^ 6 := (norm3_le b).trans (by norm_num)
  have l2 : norm3 (X + thirdStep.real.fn) ≤ 2 ^ 6 := by
    refine (norm3_le (β := 19) fun i => ?_).trans (by norm_num)
    refine (abs_add_le _ _).trans ?_
    linarith [thirdStep_le i, b i]
  rcases pre with _ | ⟨s, _ | ⟨t, _ | ⟨u, pre⟩⟩⟩
  · exact l1
  all_goals simp only [List.cons_prefix_cons, List.prefix_nil, reduceCtorEq, and_false] at hpre
  · obtain ⟨rfl, -⟩ := hpre
    exact l2
  · obtain ⟨rfl, rfl, -⟩ := hpre
    exact l2

theorem thirdVertex_within (i : Fin 3) : |thirdVertex.real.fn i| ≤ 18 := by
  rw [thirdVertex_fn]
  fin_cases i <;> simp <;> norm_num

/-- The first and the third vertex of the box, moved by a third and saved, keep their order. -/
example [Libm F64] : ∃ m' x' y', Runs plainBox alignActs m' ∧ vec3At m'.vertices (0 * 8 + 0) = some x' ∧
    vec3At m'.vertices (2 * 8 + 0) = some y' ∧ (x'.comp 0).isFin = true ∧ (y'.comp 0).isFin = true ∧
    (x'.comp 0).value ≤ (y'.comp 0).value := by
  have r := orderRuns
  obtain ⟨x', y', h1, h2, h⟩ := C182_order (o := 0) (v := 0) (w := 2) (x := ⟨flt 0, flt 1, flt 2⟩)
    (y := ⟨flt 16, flt 17, flt 18⟩) plainBox_orderly plainBox_first (by decide +kernel) (by simp [alignActs])
    alignFine
    r (by decide +kernel) (by decide +kernel)
  have f1 : ∀ z, vec3At ((updateBoundaries driftA).1.map fun x => unpackF (packF x)).vertices (0 * 8 + 0) = some z →
      (z.comp 0).isFin = true := by
    intro z hz
    have : (vec3At ((updateBoundaries driftA).1.map fun x => unpackF (packF x)).vertices (0 * 8 + 0)).all
      (fun z => (z.comp 0).isFin) = true := by decide +kernel
    rwa [hz] at this
  have f2 : ∀ z, vec3At ((updateBoundaries driftA).1.map fun x => unpackF (packF x)).vertices (2 * 8 + 0) = some z →
      (z.comp 0).isFin = true := by
    intro z hz
    have : (vec3At ((updateBoundaries driftA).1.map fun x => unpackF (packF x)).vertices (2 * 8 + 0)).all
      (fun z => (z.comp 0).isFin) = true := by decide +kernel
    rwa [hz] at this
  exact ⟨_, x', y', r, h1, h2, f1 _ h1, f2 _ h2, (h 0).2 (f1 _ h1) (f2 _ h2) (by decide +kernel)⟩

theorem orderFine : ∀ s ∈ [ColAct.move thirdStep, .store], s.Fine := by
  intro s hs
  simp only [List.mem_cons, List.not_mem_nil, or_false] at hs
  rcases hs with rfl | rfl
  · exact ⟨by decide +kernel, by decide +kernel, by decide +kernel⟩
  · trivial

/-- Two vertices of the triangle on the box, at (16, 17, 18) and (17, 17, 18): the first still is not beyond
the second, and both still have the same height. -/
example : ∃ x' y', alignedCol.vertexAt 0 0 0 0 = some x' ∧ alignedCol.vertexAt 0 0 0 1 = some y' ∧
    x'.comp 1 = y'.comp 1 ∧ ((x'.comp 0).isFin = true → (y'.comp 0).isFin = true →
      (x'.comp 0).value ≤ (y'.comp 0).value) := by
  obtain ⟨x', y', h1, h2, h⟩ := C182_col (acts := [.move thirdStep, .store]) (i := 0) (j := 0) (k := 0) (n := 0)
    (i' := 0) (j' := 0) (k' := 0) (n' := 1) (x := thirdVertex) (y := ⟨flt 17, flt 17, flt 18⟩)
    boxCol_wf aligned_runs orderFine (by decide +kernel) (by decide +kernel)
  exact ⟨x', y', h1, h2, (h 1).1 (by decide +kernel), fun f g => (h 0).2 f g (by decide +kernel)⟩

/-- Those numbers are finite. -/
example : (alignedCol.vertexAt 0 0 0 0).any (fun x => (x.comp 0).isFin) = true ∧
    (alignedCol.vertexAt 0 0 0 1).any (fun x => (x.comp 0).isFin) = true := by
  decide +kernel

/-- The first and the third vertex of the box were 16 apart on each axis, and still are up to `2^-14`. -/
example [Libm F64] : ∃ m' x' y', Runs plainBox alignActs m' ∧ vec3At m'.vertices (0 * 8 + 0) = some x' ∧
    vec3At m'.vertices (2 * 8 + 0) = some y' ∧ |(x'.real.fn 0 - y'.real.fn 0) + 16| ≤ 2 ^ (-14 : ℤ) := by
  have hx : (⟨flt 0, flt 1, flt 2⟩ : Vec3 F64).real.fn = ![0, 1, 2] := by
    have h0 : (flt 0).value = 0 := by decide +kernel
    have h1 : (flt 1).value = 1 := by decide +kernel
    have h2 : (flt 2).value = 2 := by decide +kernel
    unfold Vec3.real Vec3.fn
    rw [h0, h1, h2]
    norm_num
  have b : ∀ i, |(⟨flt 0, flt 1, flt 2⟩ : Vec3 F64).real.fn i| ≤ 18 := by
    intro i
    rw [hx]
    fin_cases i <;> simp; norm_num
  obtain ⟨x', y', h1, h2, h⟩ := C182_gap_visible (o := 0) (v := 0) (w := 2) (x := ⟨flt 0, flt 1, flt 2⟩)
    (y := thirdVertex) (B := 2 ^ 6) plainBox_orderly plainBox_first (by decide +kernel) (by simp [alignActs]) alignFine
    orderRuns (by decide +kernel) (by decide +kernel)
    ⟨by decide +kernel, by decide +kernel, by decide +kernel⟩ ⟨by decide +kernel, by decide +kernel, by decide +kernel⟩
    (orderWithin b) (orderWithin thirdVertex_within) (orderSum.trans (by norm_num)) (by norm_num)
  refine ⟨_, x', y', orderRuns, h1, h2, ?_⟩
  have h0 := h 0
  rw [thirdVertex_fn, hx] at h0
  have e : (![0, 1, 2] : Fin 3 → ℝ) 0 - (![16, 17, 18] : Fin 3 → ℝ) 0 = -16 := by norm_num
  rw [e, sub_neg_eq_add] at h0
  refine h0.trans ((mul_le_mul_of_nonneg_left orderSum (by norm_num)).trans ?_)
  norm_num

/-- The two vertices of the triangle were one apart, and still are up to `2^-14`. -/
example : ∃ x' y', alignedCol.vertexAt 0 0 0 0 = some x' ∧ alignedCol.vertexAt 0 0 0 1 = some y' ∧
    |(x'.real.fn 0 - y'.real.fn 0) + 1| ≤ 2 ^ (-14 : ℤ) := by
  have hy : (⟨flt 17, flt 17, flt 18⟩ : Vec3 F64).real.fn = ![17, 17, 18] := by
    have h1 : (flt 17).value = 17 := by decide +kernel
    have h2 : (flt 18).value = 18 := by decide +kernel
    unfold Vec3.real Vec3.fn
    rw [h1, h2]
    norm_num
  have b : ∀ i, |(⟨flt 17, flt 17, flt 18⟩ : Vec3 F64).real.fn i| ≤ 18 := by
    intro i
    rw [hy]
    fin_cases i <;> simp <;> norm_num
  obtain ⟨x', y', h1, h2, h⟩ := C182_gap (acts := [.move thirdStep, .store]) (i := 0) (j := 0) (k := 0) (n := 0)
    (i' := 0) (j' := 0) (k' := 0) (n' := 1) (x := thirdVertex) (y := ⟨flt 17, flt 17, flt 18⟩) (B := 2 ^ 6)
    boxCol_wf aligned_runs orderFine (by decide +kernel) (by decide +kernel)
    ⟨by decide +kernel, by decide +kernel, by decide +kernel⟩ ⟨by decide +kernel, by decide +kernel, by decide +kernel⟩
    (orderWithin thirdVertex_within) (orderWithin b) (orderSum.trans (by norm_num)) (by norm_num)
  refine ⟨x', y', h1, h2, ?_⟩
  have h0 := h 0
  rw [thirdVertex_fn, hy] at h0
  have e : (![16, 17, 18] : Fin 3 → ℝ) 0 - (![17, 17, 18] : Fin 3 → ℝ) 0 = -1 := by norm_num
  rw [e, sub_neg_eq_add] at h0
  refine h0.trans ((mul_le_mul_of_nonneg_left orderSum (by norm_num)).trans ?_)
  norm_num

end Bf2
