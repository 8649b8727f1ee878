import Verif.OldDriftLemmas

/-!
# C173: how far the edits of the deprecated module are from exact ones
-/

namespace Bf2

noncomputable section

section
variable [Libm F64] {vs : Nat} {ε B : ℝ} {o o' : OldMesh F64} {m : Mesh F64} {acts : List Act} {p a : VAttr} {q v : Nat}
  {x : Vec3 F64}

/-- **C173.** Any list of moves and turns of the deprecated module.  If the exactly edited vector is never longer than
`B`, and the single errors add up to at most `B`, the vector in the mesh is finite and within that sum of the exactly
edited one. -/
theorem C173_drift (twins : Twins vs o m) (apart : o.vattrs.Pairwise (Apart o.vertformat)) (runs : OldRuns o acts o')
    (small : ε ≤ 1) (fine : ∀ s ∈ acts, s.Fine ε) (nz : ∀ s ∈ acts, s.NoMinus) (first : FirstPosition o.vattrs p)
    (vector : VectorOf o a q) (hx : vec3At o.vertices (v * vs + q) = some x) (fin : x.Finite)
    (within : ∀ pre, pre <+: acts → norm3 (exactAll (decide (a = p)) pre x.real.fn) ≤ B)
    (total : (acts.map (Act.error ε B)).sum ≤ B) (big : B ≤ 2 ^ 126) :
    ∃ x', vec3At o'.vertices (v * vs + q) = some x' ∧ x'.Finite ∧
      norm3 (x'.real.fn - exactAll (decide (a = p)) acts x.real.fn) ≤ (acts.map (Act.error ε B)).sum := by
  obtain ⟨m', r, t⟩ := runs.twins twins fine nz
  obtain ⟨mem, hv, st⟩ := vector
  have h := twins.inStep
  rw [h.attrs] at apart first mem
  rw [h.vertformat] at apart st
  rw [h.vertices] at hx
  rw [t.inStep.vertices]
  exact C140_drift h.new apart r small fine first mem hv st hx fin within total big

/-- **C173.** Normals and tangents keep their lengths up to the sum of the errors. -/
theorem C173_normals (twins : Twins vs o m) (apart : o.vattrs.Pairwise (Apart o.vertformat)) (runs : OldRuns o acts o')
    (small : ε ≤ 1) (fine : ∀ s ∈ acts, s.Fine ε) (nz : ∀ s ∈ acts, s.NoMinus) (first : FirstPosition o.vattrs p)
    (vector : VectorOf o a q) (other : a ≠ p) (hx : vec3At o.vertices (v * vs + q) = some x) (fin : x.Finite)
    (len : x.real.len ≤ B) (total : (acts.map (Act.error ε B)).sum ≤ B) (big : B ≤ 2 ^ 126) :
    ∃ x', vec3At o'.vertices (v * vs + q) = some x' ∧ x'.Finite ∧
      |x'.real.len - x.real.len| ≤ (acts.map (Act.error ε B)).sum := by
  obtain ⟨m', r, t⟩ := runs.twins twins fine nz
  obtain ⟨mem, hv, st⟩ := vector
  have h := twins.inStep
  rw [h.attrs] at apart first mem
  rw [h.vertformat] at apart st
  rw [h.vertices] at hx
  rw [t.inStep.vertices]
  exact C140_normals h.new apart r small fine first mem hv other st hx fin len total big

/-- **C173.** The same in the file the deprecated module saves, with the error of storing once more. -/
theorem C173_saved (twins : Twins vs o m) (apart : o.vattrs.Pairwise (Apart o.vertformat)) (runs : OldRuns o acts o')
    (small : ε ≤ 1) (fine : ∀ s ∈ acts, s.Fine ε) (nz : ∀ s ∈ acts, s.NoMinus) (first : FirstPosition o.vattrs p)
    (vector : VectorOf o a q) (hx : vec3At o.vertices (v * vs + q) = some x) (fin : x.Finite)
    (within : ∀ pre, pre <+: acts → norm3 (exactAll (decide (a = p)) pre x.real.fn) ≤ B)
    (total : (acts.map (Act.error ε B)).sum + Act.error ε B .store ≤ B) (big : B ≤ 2 ^ 126) {pl : Plat} {file : Bytes}
    (saved : oldSave pl o' = ⟨file, none⟩) :
    ∃ r, load pl o.kind file = .ok r ∧ ∃ x', vec3At r.vertices (v * vs + q) = some x' ∧ x'.Finite ∧
      norm3 (x'.real.fn - exactAll (decide (a = p)) acts x.real.fn) ≤
        (acts.map (Act.error ε B)).sum + Act.error ε B .store := by
  obtain ⟨m', r, t⟩ := runs.twins twins fine nz
  obtain ⟨mem, hv, st⟩ := vector
  have h := twins.inStep
  have hk : o'.kind = o.kind := runs.kind twins fine nz
  rw [h.attrs] at apart first mem
  rw [h.vertformat] at apart st
  rw [h.vertices] at hx
  obtain ⟨out, r1, e1, e2, hv'⟩ := oldSave_vertices t.inStep.old.wf (by rw [saved])
  obtain rfl : file = out := by rw [saved] at e1; injection e1
  have e3 : (exportMesh pl m').err = none := (C171_saves t pl).1 (by rw [saved])
  obtain ⟨g, e4⟩ : ∃ g, exportMesh pl m' = ⟨g, none⟩ := ⟨_, out_eq e3⟩
  have e5 := C02_reload_of_export pl m' g t.inStep.new.wf e4
  have runs' : Runs m (acts ++ [.store]) (m'.map stored) := r.append (.cons (.store e4 e5) .nil)
  rw [hk] at e2
  refine ⟨r1, e2, ?_⟩
  have hve : r1.vertices = (m'.map stored).vertices := by
    rw [hv', t.inStep.vertices]
    rfl
  rw [hve]
  have hsum : ((acts ++ [Act.store]).map (Act.error ε B)).sum = (acts.map (Act.error ε B)).sum + Act.error ε B .store := by
    simp
  have hex : exactAll (decide (a = p)) (acts ++ [Act.store]) x.real.fn = exactAll (decide (a = p)) acts x.real.fn := by
    unfold exactAll
    rw [List.foldl_append]
    rfl
  rw [← hsum, ← hex]
  refine C140_drift h.new apart runs' small ?_ first mem hv st hx fin ?_ (by rw [hsum]; exact total) big
  · intro s hs
    rcases List.mem_append.1 hs with hs | hs
    · exact fine s hs
    · rw [List.mem_singleton.1 hs]; trivial
  · intro pre hp
    rcases List.prefix_concat_iff.1 hp with rfl | hp
    · rw [hex]; exact within acts (List.prefix_refl _)
    · exact within pre hp

/-- **C173.** Turning by angles whose cosine is one and whose sine is a zero keeps all numbers, if all positions,
normals and tangents are finite; only `-0.0` may become `0.0`. -/
theorem C173_no_turn (twins : Twins vs o m) (apart : o.vattrs.Pairwise (Apart o.vertformat)) {y p r : F64}
    (rest : List F64) (hy : NoTurn y) (hp : NoTurn p) (hr : NoTurn r)
    (finite : ∀ a q v k z, VectorOf o a q → k < 3 → o.vertices[v * vs + (q + k)]? = some z → z.isFin = true) :
    ∃ o', oldRotate o (y :: p :: r :: rest) = (o', none) ∧ o'.vertices.length = o.vertices.length ∧
      ∀ (i : Nat) z, o.vertices[i]? = some z → ∃ z', o'.vertices[i]? = some z' ∧ KeptZero z z' := by
  have h := twins.inStep
  have hd : ∀ a ∈ [y, p, r], (Libm.cos (Libm.radians a)).isSome ∧ (Libm.sin (Libm.radians a)).isSome := by
    have one : ∀ b, NoTurn b → (Libm.cos (Libm.radians b)).isSome ∧ (Libm.sin (Libm.radians b)).isSome := by
      rintro b ⟨⟨c, hc, -⟩, hs⟩
      simp only [List.mem_cons, List.not_mem_nil, or_false] at hs
      rw [hc]
      rcases hs with hs | hs <;> rw [hs] <;> exact ⟨rfl, rfl⟩
    intro a ha
    simp only [List.mem_cons, List.not_mem_nil, or_false] at ha
    rcases ha with rfl | rfl | rfl
    · exact one _ hy
    · exact one _ hp
    · exact one _ hr
  have t := (twins.rotate y p r rest hd).inStep
  have e := ((C171_no_errors twins).2.1 y p r rest hd).1
  refine ⟨_, pair_snd e, ?_⟩
  rw [h.attrs, h.vertformat] at apart
  obtain ⟨l, key, hl, kept⟩ := C153_kept h.new.verts h.new.vectors apart rest hy hp hr (by
    rintro i z ⟨b, hb, hbv, q, hq, h1, h2⟩ hz
    have hi : i / vs * vs + (q + (i % vs - q)) = i := by
      rw [Nat.add_sub_cancel' h1, Nat.mul_comm, Nat.div_add_mod]
    refine finite b q (i / vs) (i % vs - q) z ⟨by rw [h.attrs]; exact hb, hbv, by rw [h.vertformat]; exact hq⟩
      (by omega) ?_
    rw [hi, h.vertices]
    exact hz)
  rw [t.vertices, key, h.vertices]
  refine ⟨hl, fun i z hz => ?_⟩
  obtain ⟨z', h1, h2, -⟩ := kept i z hz
  exact ⟨z', h1, h2⟩

end

/-! ## A case -/

section
attribute [local instance] quarterTurn

def slidBox : OldMesh F64 := (oldTranslate { staticBox with indexList := false } thirdStep.toList).1
def turnedBox : OldMesh F64 := (oldRotate slidBox [flt 90, flt 90, flt 90]).1
def boxActs : List Act := [.move thirdStep, .turn (flt 90) (flt 90) (flt 90)]
def cornerBox : Vec3 F64 := ⟨hf 1, hf 2, hf (-1)⟩

theorem turnedBox_runs : OldRuns { staticBox with indexList := false } boxActs turnedBox := by
  refine .cons (o1 := slidBox) (.move ?_) (.cons (.turn ?_) .nil)
  · exact Prod.ext rfl (by decide +kernel)
  · exact Prod.ext rfl (by decide +kernel)

theorem boxAttrs_apart : boxAttrs.Pairwise (Apart 4) := by
  have key : boxAttrs.Pairwise fun a b => VectorAttr a → VectorAttr b → a.offset + 12 ≤ b.offset := by
    decide +kernel
  refine key.imp ?_
  intro a b h va vb o p so sp
  have := h va vb
  obtain ⟨-, e1, -⟩ := so
  obtain ⟨-, e2, -⟩ := sp
  omega

theorem cornerBox_fn : cornerBox.real.fn = ![1 / 2, 1, -1 / 2] := by
  have h0 : (hf 1).value = 1 / 2 := by decide +kernel
  have h1 : (hf 2).value = 1 := by decide +kernel
  have h2 : (hf (-1)).value = -1 / 2 := by decide +kernel
  unfold Vec3.real Vec3.fn cornerBox
  rw [h0, h1, h2]
  norm_num

theorem cornerBox_le (i : Fin 3) : |cornerBox.real.fn i| ≤ 1 := by
  rw [cornerBox_fn]
  fin_cases i <;> norm_num [abs_le]

/-- `Box()`, saved, loaded by both modules, moved by a third in every direction and turned by three right angles: the
first corner is within `2^-15` of the exact place in the file then saved. -/
example {file : Bytes} (saved : oldSave win turnedBox = ⟨file, none⟩) :
    ∃ r, load win staticKind file = .ok r ∧ ∃ x', vec3At r.vertices (0 * 12 + 0) = some x' ∧ x'.Finite ∧
      norm3 (x'.real.fn - (rotMat ((flt 90).value : ℝ) ((flt 90).value : ℝ) ((flt 90).value : ℝ)).mulVec
        (cornerBox.real.fn + thirdStep.real.fn)) ≤ 2 ^ (-15 : ℤ) := by
  have t1 : (2 : ℝ) ^ (-1074 : ℤ) ≤ 2 ^ (-60 : ℤ) := zpow_le_zpow_right₀ (by norm_num) (by norm_num)
  have t2 : (2 : ℝ) ^ (-1069 : ℤ) ≤ 2 ^ (-60 : ℤ) := zpow_le_zpow_right₀ (by norm_num) (by norm_num)
  have t3 : (2 : ℝ) ^ (-149 : ℤ) ≤ 2 ^ (-60 : ℤ) := zpow_le_zpow_right₀ (by norm_num) (by norm_num)
  have hs : (boxActs.map (Act.error 0 (2 ^ 6))).sum + Act.error 0 (2 ^ 6) .store ≤ 2 ^ (-15 : ℤ) := by
    simp only [boxActs, List.map_cons, List.map_nil, List.sum_cons, List.sum_nil, Act.error]
    generalize (2 : ℝ) ^ (-1074 : ℤ) = a at *
    generalize (2 : ℝ) ^ (-1069 : ℤ) = b at *
    generalize (2 : ℝ) ^ (-149 : ℤ) = c at *
    norm_num at *
    linarith
  have l1 : norm3 cornerBox.real.fn ≤ 2 ^ 6 := (norm3_le (β := 1) cornerBox_le).trans (by norm_num)
  have l2 : norm3 (cornerBox.real.fn + thirdStep.real.fn) ≤ 2 ^ 6 := by
    refine (norm3_le (β := 2) fun i => ?_).trans (by norm_num)
    refine (abs_add_le _ _).trans ?_
    have := thirdStep_le i
    have := cornerBox_le i
    linarith
  obtain ⟨r, h0, x', h1, h2, h3⟩ := C173_saved (ε := 0) (B := 2 ^ 6) (p := ⟨0, 0, 2, 0⟩) (a := ⟨0, 0, 2, 0⟩) (q := 0)
    (v := 0) (x := cornerBox) twinBox boxAttrs_apart turnedBox_runs (by norm_num)
    (by
      intro s hs
      simp only [boxActs, List.mem_cons, List.not_mem_nil, or_false] at hs
      rcases hs with rfl | rfl
      · exact ⟨by decide +kernel, by decide +kernel, by decide +kernel⟩
      · exact ⟨quarterTurn_within, quarterTurn_within, quarterTurn_within⟩)
    (by
      intro s hs
      simp only [boxActs, List.mem_cons, List.not_mem_nil, or_false] at hs
      rcases hs with rfl | rfl
      · show ∀ t ∈ thirdStep.toList, t ≠ minusZero
        decide +kernel
      · trivial)
    ⟨[], _, rfl, by decide, by decide⟩
    ⟨by decide +kernel, by decide, by decide +kernel⟩ (by decide +kernel)
    ⟨by decide +kernel, by decide +kernel, by decide +kernel⟩
    (by
      intro pre hpre
      rw [show decide ((⟨0, 0, 2, 0⟩ : VAttr) = ⟨0, 0, 2, 0⟩) = true from rfl]
      rcases pre with _ | ⟨s, _ | ⟨t, _ | ⟨u, pre⟩⟩⟩ <;>
        simp only [boxActs, List.cons_prefix_cons, List.prefix_nil, reduceCtorEq, and_false] at hpre
      · exact l1
      · obtain ⟨rfl, -⟩ := hpre
        exact l2
      · obtain ⟨rfl, rfl, -⟩ := hpre
        exact (norm3_rot _ _ _ _).trans_le l2)
    (hs.trans (by norm_num)) (by norm_num) saved
  exact ⟨r, h0, x', h1, h2, h3.trans hs⟩

/-- And it can be saved. -/
example : (oldSave win turnedBox).err = none := by decide +kernel

end

/-- A box turned by zero degrees, if the cosine of zero is one and the sine zero; among its normals and
positions are some -0.0. -/
example : ∃ _ : Libm F64, NoTurn (flt 0) ∧ ∃ o', oldRotate { staticBox with indexList := false } [flt 0, flt 0, flt 0] =
    (o', none) ∧ o'.vertices.length = boxVertices.length ∧
    ∀ (i : Nat) z, boxVertices[i]? = some z → ∃ z', o'.vertices[i]? = some z' ∧ KeptZero z z' := by
  let L : Libm F64 := stillTurn
  have hn : NoTurn (flt 0) := still_noTurn _
  have all : ∀ z ∈ boxVertices, z.isFin = true := by decide +kernel
  refine ⟨L, hn, C173_no_turn (vs := 12) (m := twinMesh) ?_ boxAttrs_apart [] hn hn hn ?_⟩
  · exact .load twinMesh_loads.1 twinMesh_loads.2 twinMesh_orderly (staticBox_orderly.arrays rfl) (by decide +kernel)
  · intro a q v k z _ _ hz
    exact all z (List.mem_of_getElem? hz)

end

end Bf2
