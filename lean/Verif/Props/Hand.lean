import Verif.HandLemmas
import Verif.Props.Rigid

/-!
# C185: edits do not mirror

Distances and angles (C183) would also be kept by a reflection. Signed volumes are not: they say to which side of a
triangle a normal points, and which way round a solid is.
-/

namespace Bf2

noncomputable section

section
variable [Libm F64] {vs : Nat} {ε B L : ℝ} {acts : List Act} {p a : VAttr} {w x y z : Vec3 F64}

/-- **C185.** Two edges of a triangle, of lengths up to `L`, and a normal or tangent of any vertex, up to `B` long:
the signed volume, and so the side to which the normal points, changes by little over any list of edits. -/
theorem C185_side {m m' : Mesh F64} {o q i j k n : Nat} (ord : Orderly vs m)
    (apart : m.vattrs.Pairwise (Apart m.vertformat)) (runs : Runs m acts m') (small : ε ≤ 1)
    (fine : ∀ s ∈ acts, s.Fine ε) (first : FirstPosition m.vattrs p) (mp : p ∈ m.vattrs) (vp : VectorAttr p)
    (ho : StartsAt m.vertformat p o) (ma : a ∈ m.vattrs) (va : VectorAttr a) (oa : a ≠ p)
    (hq : StartsAt m.vertformat a q) (hw : vec3At m.vertices (i * vs + o) = some w)
    (hx : vec3At m.vertices (j * vs + o) = some x) (hy : vec3At m.vertices (k * vs + o) = some y)
    (hz : vec3At m.vertices (n * vs + q) = some z) (fw : w.Finite) (fx : x.Finite) (fy : y.Finite) (fz : z.Finite)
    (ww : ∀ pre, pre <+: acts → norm3 (exactAll true pre w.real.fn) ≤ B)
    (wx : ∀ pre, pre <+: acts → norm3 (exactAll true pre x.real.fn) ≤ B)
    (wy : ∀ pre, pre <+: acts → norm3 (exactAll true pre y.real.fn) ≤ B) (lz : z.real.len ≤ B)
    (lx : norm3 (x.real.fn - w.real.fn) ≤ L) (ly : norm3 (y.real.fn - w.real.fn) ≤ L)
    (total : (acts.map (Act.error ε B)).sum ≤ B) (big : B ≤ 2 ^ 126) :
    ∃ w' x' y' z', vec3At m'.vertices (i * vs + o) = some w' ∧ vec3At m'.vertices (j * vs + o) = some x' ∧
      vec3At m'.vertices (k * vs + o) = some y' ∧ vec3At m'.vertices (n * vs + q) = some z' ∧
      |vol3 (x'.real.fn - w'.real.fn) (y'.real.fn - w'.real.fn) z'.real.fn -
          vol3 (x.real.fn - w.real.fn) (y.real.fn - w.real.fn) z.real.fn| ≤
        (L + 2 * (acts.map (Act.error ε B)).sum) * (L + 2 * (acts.map (Act.error ε B)).sum) *
          (B + (acts.map (Act.error ε B)).sum) - L * L * B := by
  have e : decide (p = p) = true := decide_eq_true rfl
  have ea : decide (a = p) = false := decide_eq_false oa
  obtain ⟨w', a1, -, a2⟩ := C140_drift ord apart runs small fine first mp vp ho hw fw (by rw [e]; exact ww) total big
  obtain ⟨x', b1, -, b2⟩ := C140_drift ord apart runs small fine first mp vp ho hx fx (by rw [e]; exact wx) total big
  obtain ⟨y', c1, -, c2⟩ := C140_drift ord apart runs small fine first mp vp ho hy fy (by rw [e]; exact wy) total big
  obtain ⟨z', d1, -, d2⟩ := C140_drift ord apart runs small fine first ma va hq hz fz
    (fun pre _ => by rw [ea, exactAll_length]; exact lz) total big
  rw [e] at a2 b2 c2
  rw [ea] at d2
  refine ⟨w', x', y', z', a1, b1, c1, d1, ?_⟩
  have h1 := near_edge b2 a2
  have h2 := near_edge c2 a2
  rw [exactAll_edge] at h1 h2
  rw [← exactAll_vol acts (x.real.fn - w.real.fn)]
  exact near_vol h1 h2 d2 (by rw [exactAll_length]; exact lx) (by rw [exactAll_length]; exact ly)
    (by rw [exactAll_length]; exact lz)

/-- **C185.** The signed volume between four vertices, with edges up to `L` long. -/
theorem C185_volume {m m' : Mesh F64} {o i j k n : Nat} (ord : Orderly vs m)
    (apart : m.vattrs.Pairwise (Apart m.vertformat)) (runs : Runs m acts m') (small : ε ≤ 1)
    (fine : ∀ s ∈ acts, s.Fine ε) (first : FirstPosition m.vattrs p) (mp : p ∈ m.vattrs) (vp : VectorAttr p)
    (ho : StartsAt m.vertformat p o) (hw : vec3At m.vertices (i * vs + o) = some w)
    (hx : vec3At m.vertices (j * vs + o) = some x) (hy : vec3At m.vertices (k * vs + o) = some y)
    (hz : vec3At m.vertices (n * vs + o) = some z) (fw : w.Finite) (fx : x.Finite) (fy : y.Finite) (fz : z.Finite)
    (within : ∀ u ∈ [w, x, y, z], ∀ pre, pre <+: acts → norm3 (exactAll true pre u.real.fn) ≤ B)
    (edges : ∀ u ∈ [x, y, z], norm3 (u.real.fn - w.real.fn) ≤ L)
    (total : (acts.map (Act.error ε B)).sum ≤ B) (big : B ≤ 2 ^ 126) :
    ∃ w' x' y' z', vec3At m'.vertices (i * vs + o) = some w' ∧ vec3At m'.vertices (j * vs + o) = some x' ∧
      vec3At m'.vertices (k * vs + o) = some y' ∧ vec3At m'.vertices (n * vs + o) = some z' ∧
      |vol3 (x'.real.fn - w'.real.fn) (y'.real.fn - w'.real.fn) (z'.real.fn - w'.real.fn) -
          vol3 (x.real.fn - w.real.fn) (y.real.fn - w.real.fn) (z.real.fn - w.real.fn)| ≤
        (L + 2 * (acts.map (Act.error ε B)).sum) ^ 3 - L ^ 3 := by
  have e : decide (p = p) = true := decide_eq_true rfl
  obtain ⟨w', a1, -, a2⟩ := C140_drift ord apart runs small fine first mp vp ho hw fw
    (by rw [e]; exact within w (by simp)) total big
  obtain ⟨x', b1, -, b2⟩ := C140_drift ord apart runs small fine first mp vp ho hx fx
    (by rw [e]; exact within x (by simp)) total big
  obtain ⟨y', c1, -, c2⟩ := C140_drift ord apart runs small fine first mp vp ho hy fy
    (by rw [e]; exact within y (by simp)) total big
  obtain ⟨z', d1, -, d2⟩ := C140_drift ord apart runs small fine first mp vp ho hz fz
    (by rw [e]; exact within z (by simp)) total big
  rw [e] at a2 b2 c2 d2
  refine ⟨w', x', y', z', a1, b1, c1, d1, ?_⟩
  have h1 := near_edge b2 a2
  have h2 := near_edge c2 a2
  have h3 := near_edge d2 a2
  rw [exactAll_edge] at h1 h2 h3
  rw [← exactAll_vol acts (x.real.fn - w.real.fn)]
  refine (near_vol (A := L) (B := L) (C := L) h1 h2 h3 (by rw [exactAll_length]; exact edges x (by simp))
    (by rw [exactAll_length]; exact edges y (by simp)) (by rw [exactAll_length]; exact edges z (by simp))).trans
    (le_of_eq ?_)
  ring

/-- **C185.** The same for the moves and turns of the deprecated module. -/
theorem C185_deprecated {o o' : OldMesh F64} {m : Mesh F64} {q r i j k n : Nat} (twins : Twins vs o m)
    (apart : o.vattrs.Pairwise (Apart o.vertformat)) (runs : OldRuns o acts o') (small : ε ≤ 1)
    (fine : ∀ s ∈ acts, s.Fine ε) (nz : ∀ s ∈ acts, s.NoMinus) (first : FirstPosition o.vattrs p)
    (vp : VectorOf o p q) (va : VectorOf o a r) (oa : a ≠ p) (hw : vec3At o.vertices (i * vs + q) = some w)
    (hx : vec3At o.vertices (j * vs + q) = some x) (hy : vec3At o.vertices (k * vs + q) = some y)
    (hz : vec3At o.vertices (n * vs + r) = some z) (fw : w.Finite) (fx : x.Finite) (fy : y.Finite) (fz : z.Finite)
    (ww : ∀ pre, pre <+: acts → norm3 (exactAll true pre w.real.fn) ≤ B)
    (wx : ∀ pre, pre <+: acts → norm3 (exactAll true pre x.real.fn) ≤ B)
    (wy : ∀ pre, pre <+: acts → norm3 (exactAll true pre y.real.fn) ≤ B) (lz : z.real.len ≤ B)
    (lx : norm3 (x.real.fn - w.real.fn) ≤ L) (ly : norm3 (y.real.fn - w.real.fn) ≤ L)
    (total : (acts.map (Act.error ε B)).sum ≤ B) (big : B ≤ 2 ^ 126) :
    ∃ w' x' y' z', vec3At o'.vertices (i * vs + q) = some w' ∧ vec3At o'.vertices (j * vs + q) = some x' ∧
      vec3At o'.vertices (k * vs + q) = some y' ∧ vec3At o'.vertices (n * vs + r) = some z' ∧
      |vol3 (x'.real.fn - w'.real.fn) (y'.real.fn - w'.real.fn) z'.real.fn -
          vol3 (x.real.fn - w.real.fn) (y.real.fn - w.real.fn) z.real.fn| ≤
        (L + 2 * (acts.map (Act.error ε B)).sum) * (L + 2 * (acts.map (Act.error ε B)).sum) *
          (B + (acts.map (Act.error ε B)).sum) - L * L * B := by
  have e : decide (p = p) = true := decide_eq_true rfl
  have ea : decide (a = p) = false := decide_eq_false oa
  obtain ⟨w', a1, -, a2⟩ := C173_drift twins apart runs small fine nz first vp hw fw (by rw [e]; exact ww) total big
  obtain ⟨x', b1, -, b2⟩ := C173_drift twins apart runs small fine nz first vp hx fx (by rw [e]; exact wx) total big
  obtain ⟨y', c1, -, c2⟩ := C173_drift twins apart runs small fine nz first vp hy fy (by rw [e]; exact wy) total big
  obtain ⟨z', d1, -, d2⟩ := C173_drift twins apart runs small fine nz first va hz fz
    (fun pre _ => by rw [ea, exactAll_length]; exact lz) total big
  rw [e] at a2 b2 c2
  rw [ea] at d2
  refine ⟨w', x', y', z', a1, b1, c1, d1, ?_⟩
  have h1 := near_edge b2 a2
  have h2 := near_edge c2 a2
  rw [exactAll_edge] at h1 h2
  rw [← exactAll_vol acts (x.real.fn - w.real.fn)]
  exact near_vol h1 h2 d2 (by rw [exactAll_length]; exact lx) (by rw [exactAll_length]; exact ly)
    (by rw [exactAll_length]; exact lz)

end

/-! ## The cases are met -/

/-- The second and third corner of `Box()`, and the normal of its first corner. -/
def secondBox : Vec3 F64 := ⟨hf 1, hf 0, hf (-1)⟩
def thirdBox : Vec3 F64 := ⟨hf (-1), hf 0, hf (-1)⟩
def normalBox : Vec3 F64 := ⟨hf 0, hf 0, hf (-2)⟩

theorem secondBox_fn : secondBox.real.fn = ![1 / 2, 0, -1 / 2] := by
  have h0 : (hf 1).value = 1 / 2 := by decide +kernel
  have h1 : (hf 0).value = 0 := by decide +kernel
  have h2 : (hf (-1)).value = -1 / 2 := by decide +kernel
  simp [secondBox, Vec3.real, Vec3.fn, h0, h1, h2]

theorem thirdBox_fn : thirdBox.real.fn = ![-1 / 2, 0, -1 / 2] := by
  have h1 : (hf 0).value = 0 := by decide +kernel
  have h2 : (hf (-1)).value = -1 / 2 := by decide +kernel
  simp [thirdBox, Vec3.real, Vec3.fn, h1, h2]

theorem normalBox_fn : normalBox.real.fn = ![0, 0, -1] := by
  have h1 : (hf 0).value = 0 := by decide +kernel
  have h2 : (hf (-2)).value = -1 := by decide +kernel
  simp [normalBox, Vec3.real, Vec3.fn, h1, h2]

theorem boxVol : vol3 (secondBox.real.fn - cornerBox.real.fn) (thirdBox.real.fn - cornerBox.real.fn)
    normalBox.real.fn = 1 := by
  rw [secondBox_fn, thirdBox_fn, normalBox_fn, cornerBox_fn]
  simp [vol3]
  try norm_num

theorem boxEdges : norm3 (secondBox.real.fn - cornerBox.real.fn) ≤ 2 ∧
    norm3 (thirdBox.real.fn - cornerBox.real.fn) ≤ 2 := by
  constructor <;>
  · refine (norm3_le (β := 1) fun i => ?_).trans (by norm_num)
    rw [cornerBox_fn]
    first | rw [secondBox_fn] | rw [thirdBox_fn]
    fin_cases i <;> norm_num

theorem boxActsSum : (boxActs.map (Act.error 0 (2 ^ 6))).sum ≤ 2 ^ (-15 : ℤ) := by
  refine le_trans ?_ driftSum
  simp only [boxActs, driftActs, List.map_cons, List.map_nil, List.sum_cons, List.sum_nil, Act.error]
  have : (0 : ℝ) ≤ 2 ^ (-22 : ℤ) * 2 ^ 6 + 2 ^ (-149 : ℤ) := by positivity
  linarith

theorem boxActsWithin {X : Fin 3 → ℝ} (b : ∀ i, |X i| ≤ 1) (pre : List Act) (hpre : pre <+: boxActs) :
    norm3 (exactAll true pre X) ≤ 2 ^ 6 :=
  driftWithin (fun c => (b c).trans (by norm_num)) pre (hpre.trans ⟨[.update, .store], rfl⟩)

theorem secondBox_le (i : Fin 3) : |secondBox.real.fn i| ≤ 1 := by
  rw [secondBox_fn]
  fin_cases i <;> norm_num [abs_le]

theorem thirdBox_le (i : Fin 3) : |thirdBox.real.fn i| ≤ 1 := by
  rw [thirdBox_fn]
  fin_cases i <;> norm_num [abs_le]

theorem normalBox_le : normalBox.real.len ≤ 2 ^ 6 := by
  refine (norm3_le (X := normalBox.real.fn) (β := 1) fun i => ?_).trans (by norm_num)
  rw [normalBox_fn]
  fin_cases i <;> norm_num

theorem boxMargin {V E : ℝ} (E0 : 0 ≤ E) (hE : E ≤ 2 ^ (-15 : ℤ))
    (h : |V - 1| ≤ (2 + 2 * E) * (2 + 2 * E) * (2 ^ 6 + E) - 2 * 2 * 2 ^ 6) : 0 < V := by
  have h1 : (2 + 2 * E) * (2 + 2 * E) * (2 ^ 6 + E) ≤
      (2 + 2 * 2 ^ (-15 : ℤ)) * (2 + 2 * 2 ^ (-15 : ℤ)) * (2 ^ 6 + 2 ^ (-15 : ℤ)) := by gcongr
  have h2 := (abs_le.1 h).1
  norm_num at h1
  linarith

theorem boxActsSum_nonneg : 0 ≤ (boxActs.map (Act.error 0 (2 ^ 6))).sum := by
  simp only [boxActs, List.map_cons, List.map_nil, List.sum_cons, List.sum_nil, Act.error]
  positivity

theorem boxActs_noMinus : ∀ s ∈ boxActs, s.NoMinus := by
  intro s hs
  simp only [boxActs, List.mem_cons, List.not_mem_nil, or_false] at hs
  rcases hs with rfl | rfl
  · show ∀ t ∈ thirdStep.toList, t ≠ minusZero
    decide +kernel
  · trivial

theorem boxActsFine : ∀ s ∈ boxActs, @Act.Fine quarterTurn 0 s := fun s hs =>
  driftFine s (List.IsPrefix.subset (l₂ := driftActs) ⟨[.update, .store], rfl⟩ hs)

/-- The first normal of `Box()` points to the front of its first triangle, and does so after the box was moved and
turned by the deprecated module. -/
example : ∃ w' x' y' z', vec3At turnedBox.vertices (0 * 12 + 0) = some w' ∧
    vec3At turnedBox.vertices (1 * 12 + 0) = some x' ∧ vec3At turnedBox.vertices (2 * 12 + 0) = some y' ∧
    vec3At turnedBox.vertices (0 * 12 + 3) = some z' ∧
    0 < vol3 (x'.real.fn - w'.real.fn) (y'.real.fn - w'.real.fn) z'.real.fn := by
  obtain ⟨w', x', y', z', h1, h2, h3, h4, h⟩ := @C185_deprecated quarterTurn 12 0 (2 ^ 6) 2 boxActs ⟨0, 0, 2, 0⟩
    ⟨0, 12, 2, 3⟩ cornerBox secondBox thirdBox normalBox { staticBox with indexList := false } turnedBox twinMesh
    0 3 0 1 2 0 twinBox boxAttrs_apart turnedBox_runs (by norm_num) boxActsFine boxActs_noMinus
    ⟨[], _, rfl, by decide, by decide⟩ ⟨by decide +kernel, by decide, by decide +kernel⟩
    ⟨by decide +kernel, by decide, by decide +kernel⟩ (by decide) (by decide +kernel) (by decide +kernel)
    (by decide +kernel) (by decide +kernel) ⟨by decide +kernel, by decide +kernel, by decide +kernel⟩
    ⟨by decide +kernel, by decide +kernel, by decide +kernel⟩ ⟨by decide +kernel, by decide +kernel, by decide +kernel⟩
    ⟨by decide +kernel, by decide +kernel, by decide +kernel⟩ (boxActsWithin cornerBox_le) (boxActsWithin secondBox_le)
    (boxActsWithin thirdBox_le) normalBox_le boxEdges.1 boxEdges.2 (boxActsSum.trans (by norm_num)) (by norm_num)
  rw [boxVol] at h
  exact ⟨w', x', y', z', h1, h2, h3, h4, boxMargin boxActsSum_nonneg boxActsSum h⟩

/-- The same in the package. -/
example : ∃ m', @Runs quarterTurn twinMesh boxActs m' ∧ ∃ w' x' y' z', vec3At m'.vertices (0 * 12 + 0) = some w' ∧
    vec3At m'.vertices (1 * 12 + 0) = some x' ∧ vec3At m'.vertices (2 * 12 + 0) = some y' ∧
    vec3At m'.vertices (0 * 12 + 3) = some z' ∧
    0 < vol3 (x'.real.fn - w'.real.fn) (y'.real.fn - w'.real.fn) z'.real.fn := by
  obtain ⟨m', runs, -⟩ := @OldRuns.twins quarterTurn _ _ _ _ _ turnedBox_runs _ twinBox boxActsFine boxActs_noMinus
  obtain ⟨w', x', y', z', h1, h2, h3, h4, h⟩ := @C185_side quarterTurn 12 0 (2 ^ 6) 2 boxActs ⟨0, 0, 2, 0⟩
    ⟨0, 12, 2, 3⟩ cornerBox secondBox thirdBox normalBox twinMesh m' 0 3 0 1 2 0 twinMesh_orderly boxAttrs_apart runs
    (by norm_num) boxActsFine ⟨[], _, rfl, by decide, by decide⟩ (by decide +kernel) (by decide) (by decide +kernel)
    (by decide +kernel) (by decide) (by decide) (by decide +kernel) (by decide +kernel) (by decide +kernel)
    (by decide +kernel) (by decide +kernel) ⟨by decide +kernel, by decide +kernel, by decide +kernel⟩
    ⟨by decide +kernel, by decide +kernel, by decide +kernel⟩ ⟨by decide +kernel, by decide +kernel, by decide +kernel⟩
    ⟨by decide +kernel, by decide +kernel, by decide +kernel⟩ (boxActsWithin cornerBox_le) (boxActsWithin secondBox_le)
    (boxActsWithin thirdBox_le) normalBox_le boxEdges.1 boxEdges.2 (boxActsSum.trans (by norm_num)) (by norm_num)
  rw [boxVol] at h
  exact ⟨m', runs, w', x', y', z', h1, h2, h3, h4, boxMargin boxActsSum_nonneg boxActsSum h⟩

/-- The corner above the first one in the direction of the z axis. -/
def fifthBox : Vec3 F64 := ⟨hf 1, hf 2, hf 1⟩

theorem fifthBox_fn : fifthBox.real.fn = ![1 / 2, 1, 1 / 2] := by
  have h0 : (hf 1).value = 1 / 2 := by decide +kernel
  have h1 : (hf 2).value = 1 := by decide +kernel
  simp [fifthBox, Vec3.real, Vec3.fn, h0, h1]

theorem fifthBox_le (i : Fin 3) : |fifthBox.real.fn i| ≤ 1 := by
  rw [fifthBox_fn]
  fin_cases i <;> norm_num [abs_le]

/-- Four corners of `Box()` keep their volume of `-1` up to `2^-8`. -/
example : ∃ m', @Runs quarterTurn twinMesh boxActs m' ∧ ∃ w' x' y' z', vec3At m'.vertices (0 * 12 + 0) = some w' ∧
    vec3At m'.vertices (1 * 12 + 0) = some x' ∧ vec3At m'.vertices (2 * 12 + 0) = some y' ∧
    vec3At m'.vertices (4 * 12 + 0) = some z' ∧
    |vol3 (x'.real.fn - w'.real.fn) (y'.real.fn - w'.real.fn) (z'.real.fn - w'.real.fn) - -1| ≤ 2 ^ (-8 : ℤ) := by
  obtain ⟨m', runs, -⟩ := @OldRuns.twins quarterTurn _ _ _ _ _ turnedBox_runs _ twinBox boxActsFine boxActs_noMinus
  obtain ⟨w', x', y', z', h1, h2, h3, h4, h⟩ := @C185_volume quarterTurn 12 0 (2 ^ 6) 2 boxActs ⟨0, 0, 2, 0⟩
    cornerBox secondBox thirdBox fifthBox twinMesh m' 0 0 1 2 4 twinMesh_orderly boxAttrs_apart runs
    (by norm_num) boxActsFine ⟨[], _, rfl, by decide, by decide⟩ (by decide +kernel) (by decide) (by decide +kernel)
    (by decide +kernel) (by decide +kernel) (by decide +kernel) (by decide +kernel)
    ⟨by decide +kernel, by decide +kernel, by decide +kernel⟩ ⟨by decide +kernel, by decide +kernel, by decide +kernel⟩
    ⟨by decide +kernel, by decide +kernel, by decide +kernel⟩ ⟨by decide +kernel, by decide +kernel, by decide +kernel⟩
    (by
      intro u hu
      simp only [List.mem_cons, List.not_mem_nil, or_false] at hu
      rcases hu with rfl | rfl | rfl | rfl
      exacts [boxActsWithin cornerBox_le, boxActsWithin secondBox_le, boxActsWithin thirdBox_le,
        boxActsWithin fifthBox_le])
    (by
      intro u hu
      simp only [List.mem_cons, List.not_mem_nil, or_false] at hu
      rcases hu with rfl | rfl | rfl
      · exact boxEdges.1
      · exact boxEdges.2
      · refine (norm3_le (β := 1) fun i => ?_).trans (by norm_num)
        rw [cornerBox_fn, fifthBox_fn]
        fin_cases i <;> norm_num)
    (boxActsSum.trans (by norm_num)) (by norm_num)
  have hv : vol3 (secondBox.real.fn - cornerBox.real.fn) (thirdBox.real.fn - cornerBox.real.fn)
      (fifthBox.real.fn - cornerBox.real.fn) = -1 := by
    rw [secondBox_fn, thirdBox_fn, fifthBox_fn, cornerBox_fn]
    simp [vol3]
    try norm_num
  rw [hv] at h
  refine ⟨m', runs, w', x', y', z', h1, h2, h3, h4, h.trans ?_⟩
  have E0 := boxActsSum_nonneg
  have hE := boxActsSum
  have h5 : (2 + 2 * (boxActs.map (Act.error 0 (2 ^ 6))).sum) ^ 3 ≤ (2 + 2 * 2 ^ (-15 : ℤ)) ^ 3 := by gcongr
  norm_num at h5 ⊢
  linarith

end

end Bf2
