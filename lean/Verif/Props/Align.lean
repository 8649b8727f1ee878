import Verif.AlignLemmas
import Verif.Props.Narrow
import Verif.Props.Drift

/-!
# C180: a collision mesh moved along with its visible mesh

`translate` of the collision module (`modcolmesh.py:461-466`) adds doubles and saving rounds to single
precision, as for visible meshes.  So positions are the correctly rounded ones, they drift by no more than
the sum of the roundings, and a collision vertex that lies on a vertex of the visible mesh lies on it,
bit for bit, after any moves and saves of both.
-/

namespace Bf2

/-- A finite double read from a file is a number of binary32. -/
theorem unpacked_single {w : BitVec 32} (fin : (unpackF w).isFin = true) : IsSingle (unpackF w) := by
  have hw : ¬ Special32 w := by
    intro hs
    rw [special32_iff] at hs
    have hm := unpackF_mag w
    simp only [F64.isFin, decide_eq_true_eq] at fin
    change (unpackF w).mag < inf64 at fin
    rw [hm] at fin
    unfold unpackMag at fin
    rw [if_neg (by omega)] at fin
    split_ifs at fin <;> simp only [inf64, inf32] at fin hs <;> omega
  exact ⟨fin, w, hw, (C51_read_exact w hw).2⟩

noncomputable section

/-- **C180.** A moved coordinate is the exact sum correctly rounded, if both numbers are finite, and follows
the rules for infinities and NaNs otherwise. -/
theorem C180_rounds {φ : Type} (off : Vec3 F64) (m : ColMesh F64 φ) {i j k n : Nat} {v : Vec3 F64}
    (hv : m.vertexAt i j k n = some v) :
    ∃ v', (colTranslate off m).vertexAt i j k n = some v' ∧ ∀ c : Fin 3,
      ((v.fn c).isFin = true → (off.fn c).isFin = true → Rounded ((v.fn c).value + (off.fn c).value) (v'.fn c)) ∧
      ((v.fn c).isNaN = true ∨ (off.fn c).isNaN = true → (v'.fn c).isNaN = true) ∧
      ((v.fn c).isInf = true → (off.fn c).isFin = true → v'.fn c = v.fn c) ∧
      ((v.fn c).isFin = true → (off.fn c).isInf = true → v'.fn c = off.fn c) ∧
      ((v.fn c).isInf = true → (off.fn c).isInf = true → (v.fn c).neg = (off.fn c).neg → v'.fn c = v.fn c) ∧
      ((v.fn c).isInf = true → (off.fn c).isInf = true → (v.fn c).neg ≠ (off.fn c).neg →
        (v'.fn c).isNaN = true) := by
  refine ⟨v.plus off, by rw [vertexAt_translate, hv]; rfl, fun c => ?_⟩
  have e : (v.plus off).fn c = F64.add (v.fn c) (off.fn c) := by fin_cases c <;> rfl
  rw [e]
  exact ⟨add_rounded, add_special _ _⟩

/-- **C180.** From file to file: every finite coordinate of the file loaded, moved by a number of binary32 and
saved, is in the new file the exact sum correctly rounded to single precision. -/
theorem C180_file {pl : Plat} {file bs : Bytes} {m : ColMesh F64 ColFace} (loaded : loadCol pl file = .ok m)
    {off : Vec3 F64} (single : ∀ c, IsSingle (off.fn c)) (saved : writeCol pl (colTranslate off m) = ⟨bs, none⟩) :
    ∃ m2, loadCol pl bs = .ok m2 ∧ ∀ (i j k n : Nat) (v : Vec3 F64), m.vertexAt i j k n = some v →
      ∃ w : Vec3 (BitVec 32), m2.vertexAt i j k n = some (w.map unpackF) ∧ ∀ c, (v.fn c).isFin = true →
        Rounded32 ((v.fn c).value + (off.fn c).value) (w.fn c) := by
  have hw := colWF_loaded loaded
  refine ⟨_, C61_reload_of_save pl _ bs (colWF_translate hw) saved, fun i j k n v hv => ?_⟩
  refine ⟨(v.plus off).map packF, ?_, fun c fin => ?_⟩
  · rw [vertexAt_map, vertexAt_translate, hv]
    rfl
  · have e : ((v.plus off).map packF).fn c = packF (F64.add (v.fn c) (off.fn c)) := by fin_cases c <;> rfl
    rw [e]
    refine single_sum ?_ (single c)
    obtain ⟨r, -, -, -, -, rfl⟩ := (C59_loads_iff_layout pl file m).1 loaded
    unfold ColMesh.obj at hv
    rw [vertexAt_map] at hv
    obtain ⟨w, -, rfl⟩ := Option.map_eq_some_iff.1 hv
    have e2 : (w.map unpackF).fn c = unpackF (w.fn c) := by fin_cases c <;> rfl
    rw [e2] at fin ⊢
    exact unpacked_single fin

/-- **C180.** Any list of moves and saves with loading again.  If the exactly moved vertex is never farther than
`B` from the origin, and the single errors add up to at most `B`, then the vertex is finite and within that
sum of the exactly moved one. -/
theorem C180_drift {acts : List ColAct} {m m' : ColMesh F64 ColFace} {B : ℝ} (wf : ColWF m)
    (runs : ColRuns m acts m') (fine : ∀ s ∈ acts, s.Fine) {i j k n : Nat} {x : Vec3 F64}
    (hx : m.vertexAt i j k n = some x) (fin : x.Finite)
    (within : ∀ pre, pre <+: acts → norm3 (exactAll true (pre.map ColAct.act) x.real.fn) ≤ B)
    (total : (acts.map fun s => s.act.error 0 B).sum ≤ B) (big : B ≤ 2 ^ 126) :
    ∃ x', m'.vertexAt i j k n = some x' ∧ x'.Finite ∧
      norm3 (x'.real.fn - exactAll true (acts.map ColAct.act) x.real.fn) ≤
        (acts.map fun s => s.act.error 0 B).sum := by
  have hc : Close 0 x x.real.fn := ⟨fin, by rw [sub_self]; simp [norm3]⟩
  have h := all_close (ε := 0) fine hc within (by rw [zero_add]; exact total) big
  rw [zero_add] at h
  exact ⟨_, by rw [runs.vertex wf, hx]; rfl, h.fin, h.near⟩

/-- **C180.** A visible mesh and a collision mesh are moved and saved alike; the bounds of the visible mesh may be
updated in between.  Where a vertex of the one had exactly the coordinates of a vertex of the other, it
still has. -/
theorem C180_aligned [Libm F64] {vs o v : Nat} {m m' : Mesh F64} {p : VAttr} {acts : List Act}
    {c c' : ColMesh F64 ColFace} {i j k n : Nat} {x : Vec3 F64}
    (ord : Orderly vs m) (first : FirstPosition m.vattrs p) (ho : StartsAt m.vertformat p o) (wf : ColWF c)
    (noTurn : ∀ y q r, Act.turn y q r ∉ acts) (runs : Runs m acts m') (cruns : ColRuns c (acts.filterMap Act.col) c')
    (hx : vec3At m.vertices (v * vs + o) = some x) (hc : c.vertexAt i j k n = some x) :
    ∃ x', vec3At m'.vertices (v * vs + o) = some x' ∧ c'.vertexAt i j k n = some x' :=
  ⟨_, runs.position noTurn ord first ho hx, by rw [cruns.vertex wf, hc]; rfl⟩

/-! ## A triangle moved along with the box -/

/-- A triangle with the first vertex of its first lod on the third vertex of the box. -/
def boxCol : ColMesh F64 ColFace := colTranslate thirdVertex triCol.obj

def alignActs : List Act := [.move thirdStep, .update, .store]

def alignedCol : ColMesh F64 ColFace :=
  (colTranslate thirdStep boxCol).map (fun x => unpackF (packF x))
    fun f => { f with material := 0, m := some f.material }

theorem boxCol_wf : ColWF boxCol := by
  have h : ColWF triCol := by
    refine ⟨rfl, ?_⟩
    intro g hg
    simp only [triCol, List.mem_singleton] at hg
    subst hg
    refine ⟨rfl, fun s hs => ?_⟩
    simp only [List.mem_singleton] at hs
    subst hs
    refine ⟨rfl, fun l hl => ?_⟩
    simp only [List.mem_cons, List.not_mem_nil, or_false] at hl
    rcases hl with rfl | rfl <;> exact ⟨by decide, rfl, rfl, rfl, rfl, rfl, rfl⟩
  exact colWF_translate (h.map _ _)

theorem aligned_runs : ColRuns boxCol (alignActs.filterMap Act.col) alignedCol := by
  have he : (writeCol win (colTranslate thirdStep boxCol)).err = none := by decide +kernel
  have hs : writeCol win (colTranslate thirdStep boxCol) =
      ⟨(writeCol win (colTranslate thirdStep boxCol)).bytes, none⟩ := by rw [← he]
  exact .cons .move (.cons (.store hs (C61_reload_of_save win _ _ (colWF_translate boxCol_wf) hs)) .nil)

/-- Both meshes are moved by a third, which is no number of binary32, and saved: the vertex still is where
the third vertex of the box is. -/
example [Libm F64] : ∃ m', Runs plainBox alignActs m' ∧ boxCol.vertexAt 0 0 0 0 = some thirdVertex ∧
    ∃ x', vec3At m'.vertices (2 * 8 + 0) = some x' ∧ alignedCol.vertexAt 0 0 0 0 = some x' := by
  have r : Runs plainBox alignActs ((updateBoundaries driftA).1.map fun x => unpackF (packF x)) := by
    refine .cons (m1 := driftA) (.move (Prod.ext rfl (by decide +kernel))) (.cons (.update (Prod.ext rfl
      (by decide +kernel))) (.cons (.store (pl := win) (file := (exportMesh win (updateBoundaries driftA).1).bytes)
        ?_ ?_) .nil))
    · have : (exportMesh win (updateBoundaries driftA).1).err = none := by decide +kernel
      rw [← this]
    · decide +kernel
  refine ⟨_, r, by decide +kernel, ?_⟩
  exact C180_aligned plainBox_orderly plainBox_first (by decide +kernel) boxCol_wf (by simp [alignActs]) r aligned_runs
    (x := thirdVertex) (by decide +kernel) (by decide +kernel)

/-- The vertex moved by a third and saved is within `2^-15` of the exact place. -/
example : ∃ x', alignedCol.vertexAt 0 0 0 0 = some x' ∧ x'.Finite ∧
    norm3 (x'.real.fn - (thirdVertex.real.fn + thirdStep.real.fn)) ≤ 2 ^ (-15 : ℤ) := by
  have t1 : (2 : ℝ) ^ (-1074 : ℤ) ≤ 2 ^ (-60 : ℤ) := zpow_le_zpow_right₀ (by norm_num) (by norm_num)
  have t3 : (2 : ℝ) ^ (-149 : ℤ) ≤ 2 ^ (-60 : ℤ) := zpow_le_zpow_right₀ (by norm_num) (by norm_num)
  have hs : ([ColAct.move thirdStep, .store].map fun s => s.act.error 0 (2 ^ 6)).sum ≤ 2 ^ (-15 : ℤ) := by
    simp only [List.map_cons, List.map_nil, List.sum_cons, List.sum_nil, ColAct.act, Act.error]
    generalize (2 : ℝ) ^ (-1074 : ℤ) = a at *
    generalize (2 : ℝ) ^ (-149 : ℤ) = c at *
    norm_num at *
    linarith
  obtain ⟨l1, l2⟩ := third_lengths
  obtain ⟨x', h1, h2, h3⟩ := C180_drift (B := 2 ^ 6) (acts := [.move thirdStep, .store]) (x := thirdVertex)
    (i := 0) (j := 0) (k := 0) (n := 0) boxCol_wf aligned_runs
    (by
      intro s hs
      simp only [List.mem_cons, List.not_mem_nil, or_false] at hs
      rcases hs with rfl | rfl
      · exact ⟨by decide +kernel, by decide +kernel, by decide +kernel⟩
      · trivial)
    (by decide +kernel) ⟨by decide +kernel, by decide +kernel, by decide +kernel⟩
    (by
      intro pre hpre
      rcases pre with _ | ⟨s, _ | ⟨t, _ | ⟨u, pre⟩⟩⟩
      · exact l1
      all_goals simp only [List.cons_prefix_cons, List.prefix_nil, reduceCtorEq, and_false] at hpre
      · obtain ⟨rfl, -⟩ := hpre
        exact l2
      · obtain ⟨rfl, rfl, -⟩ := hpre
        exact l2)
    (hs.trans (by norm_num)) (by norm_num)
  exact ⟨x', h1, h2, h3.trans hs⟩

/-- A vertex at infinity stays there, and the vertex at the origin moved by a third is the third. -/
example :
    let m : ColMesh F64 ColFace := triCol.obj
    m.vertexAt 0 0 0 0 = some ⟨flt 0, flt 0, flt 0⟩ ∧
    (colTranslate thirdStep m).vertexAt 0 0 0 0 = some thirdStep ∧
    (colTranslate ⟨unpackF 0x7f800000, flt 0, flt 0⟩ m).vertexAt 0 0 0 1 =
      some ⟨unpackF 0x7f800000, flt 0, flt 0⟩ := by
  decide +kernel

/-- A file whose mesh is moved by (1, 2, 2^24) and saved. -/
example : ∃ file bs, loadCol (F := F64) win file = .ok triCol.obj ∧
    (∀ c, IsSingle ((⟨flt 1, flt 2, flt (2 ^ 24)⟩ : Vec3 F64).fn c)) ∧
    writeCol win (colTranslate ⟨flt 1, flt 2, flt (2 ^ 24)⟩ triCol.obj) = ⟨bs, none⟩ ∧
    (loadCol (F := F64) win bs).toOption.bind (fun m => m.vertexAt 0 0 0 2) =
      some ⟨flt 1, flt 4, flt (2 ^ 24 - 3)⟩ := by
  have he : (writeCol win (colTranslate ⟨flt 1, flt 2, flt (2 ^ 24)⟩ triCol.obj)).err = none := by decide +kernel
  refine ⟨layout win triCol.items, (writeCol win (colTranslate ⟨flt 1, flt 2, flt (2 ^ 24)⟩ triCol.obj)).bytes,
    by decide +kernel, fun c => ?_, by rw [← he], by decide +kernel⟩
  fin_cases c
  · exact oddSteps_single (flt 1) (by simp [oddSteps])
  · exact oddSteps_single (flt 2) (by simp [oddSteps])
  · exact flt24_single

end

end Bf2
