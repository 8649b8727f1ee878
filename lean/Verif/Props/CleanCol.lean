import Verif.Props.Clean
import Verif.Props.Align

/-!
# C194: moves of a collision mesh that stay within binary32
-/

namespace Bf2

theorem on_exact {s : ColAct} {x : Vec3 F64} {X : Fin 3 → ℝ} (fd : s.Fine) (hc : HasValues x X) (h0 : Exactly X)
    (h1 : Exactly (s.act.exact true X)) : HasValues (s.on x) (s.act.exact true X) := by
  obtain ⟨fin, rfl⟩ := hc
  cases s with
  | move d =>
    obtain ⟨w0, b0, g0, -⟩ := h1 0
    obtain ⟨w1, b1, g1, -⟩ := h1 1
    obtain ⟨w2, b2, g2, -⟩ := h1 2
    obtain ⟨f0, c0⟩ := add_exact fin.1 fd.1 b0 g0
    obtain ⟨f1, c1⟩ := add_exact fin.2.1 fd.2.1 b1 g1
    obtain ⟨f2, c2⟩ := add_exact fin.2.2 fd.2.2 b2 g2
    refine ⟨⟨f0, f1, f2⟩, ?_⟩
    ext i
    fin_cases i
    exacts [c0, c1, c2]
  | store =>
    obtain ⟨w0, b0, g0, s0⟩ := h0 0
    obtain ⟨w1, b1, g1, s1⟩ := h0 1
    obtain ⟨w2, b2, g2, s2⟩ := h0 2
    obtain ⟨f0, c0⟩ := store_exact fin.1 b0 g0 s0
    obtain ⟨f1, c1⟩ := store_exact fin.2.1 b1 g1 s1
    obtain ⟨f2, c2⟩ := store_exact fin.2.2 b2 g2 s2
    refine ⟨⟨f0, f1, f2⟩, ?_⟩
    ext i
    fin_cases i
    exacts [c0, c1, c2]

theorem all_exact {ss : List ColAct} {x : Vec3 F64} {X : Fin 3 → ℝ} (fine : ∀ s ∈ ss, s.Fine) (hc : HasValues x X)
    (clean : ∀ pre, pre <+: ss → Exactly (exactAll true (pre.map ColAct.act) X)) :
    HasValues (ss.foldl (fun x s => s.on x) x) (exactAll true (ss.map ColAct.act) X) := by
  induction ss generalizing x X with
  | nil => exact hc
  | cons s ss ih =>
    exact ih (fun t ht => fine t (List.mem_cons_of_mem _ ht))
      (on_exact (fine s List.mem_cons_self) hc (clean [] List.nil_prefix) (clean [s] ⟨ss, rfl⟩))
      (fun pre ⟨t, ht⟩ => clean (s :: pre) ⟨t, by rw [← ht]; rfl⟩)

/-- **C194.** Any list of moves and saves with loading again of a collision mesh under which the exactly moved
vertex always is in binary32 is carried out exactly. -/
theorem C194_exact {acts : List ColAct} {m m' : ColMesh F64 ColFace} (wf : ColWF m) (runs : ColRuns m acts m')
    (fine : ∀ s ∈ acts, s.Fine) {i j k n : Nat} {x : Vec3 F64} (hx : m.vertexAt i j k n = some x) (fin : x.Finite)
    (clean : ∀ pre, pre <+: acts → Exactly (exactAll true (pre.map ColAct.act) x.real.fn)) :
    ∃ x', m'.vertexAt i j k n = some x' ∧ x'.Finite ∧
      x'.real.fn = exactAll true (acts.map ColAct.act) x.real.fn := by
  have h := all_exact fine ⟨fin, rfl⟩ clean
  exact ⟨_, by rw [runs.vertex wf, hx]; rfl, h.fin, h.eq⟩

/-- **C194.** A vertex moved, saved, moved back and saved is exactly where it was. -/
theorem C194_there_and_back {d : Vec3 F64} {m m' : ColMesh F64 ColFace} (wf : ColWF m)
    (runs : ColRuns m [.move d, .store, .move ⟨d.x.negate, d.y.negate, d.z.negate⟩, .store] m') (finite : d.Finite)
    {i j k n : Nat} {x : Vec3 F64} (hx : m.vertexAt i j k n = some x) (fin : x.Finite) (here : Exactly x.real.fn)
    (there : Exactly (x.real.fn + d.real.fn)) :
    ∃ x', m'.vertexAt i j k n = some x' ∧ x'.Finite ∧ x'.real.fn = x.real.fn := by
  have neg : (⟨d.x.negate, d.y.negate, d.z.negate⟩ : Vec3 F64).real.fn = -d.real.fn := by
    ext i
    fin_cases i <;> simp [Vec3.real, Vec3.fn, negate_value]
  have nfin : ∀ t : F64, t.negate.isFin = t.isFin := fun t => by cases t; rfl
  have back : x.real.fn + d.real.fn + (⟨d.x.negate, d.y.negate, d.z.negate⟩ : Vec3 F64).real.fn = x.real.fn := by
    rw [neg]; abel
  have home : Exactly (x.real.fn + d.real.fn + (⟨d.x.negate, d.y.negate, d.z.negate⟩ : Vec3 F64).real.fn) := by
    rw [back]; exact here
  obtain ⟨x', h1, h2, h3⟩ := C194_exact wf runs
    (by
      intro b hb
      simp only [List.mem_cons, List.not_mem_nil, or_false] at hb
      rcases hb with rfl | rfl | rfl | rfl
      · exact finite
      · trivial
      · exact ⟨(nfin _).trans finite.1, (nfin _).trans finite.2.1, (nfin _).trans finite.2.2⟩
      · trivial)
    hx fin
    (by
      intro pre hpre
      rcases pre with _ | ⟨a, _ | ⟨b, _ | ⟨c, _ | ⟨e, _ | ⟨f, pre⟩⟩⟩⟩⟩
      · exact here
      all_goals simp only [List.cons_prefix_cons, List.prefix_nil, reduceCtorEq, and_false] at hpre
      · obtain ⟨rfl, -⟩ := hpre
        exact there
      · obtain ⟨rfl, rfl, -⟩ := hpre
        exact there
      · obtain ⟨rfl, rfl, rfl, -⟩ := hpre
        exact home
      · obtain ⟨rfl, rfl, rfl, rfl, -⟩ := hpre
        exact home)
  exact ⟨x', h1, h2, h3.trans back⟩

/-! ## A sample -/

/-- The triangle moved by (1, 2, 3), saved and loaded. -/
def littleCol : ColMesh F64 ColFace :=
  (colTranslate littleMove boxCol).map (fun x => unpackF (packF x)) fun f => { f with material := 0, m := some f.material }

theorem littleCol_runs : ColRuns boxCol [.move littleMove, .store] littleCol := by
  have he : (writeCol win (colTranslate littleMove boxCol)).err = none := by decide +kernel
  have hs : writeCol win (colTranslate littleMove boxCol) =
      ⟨(writeCol win (colTranslate littleMove boxCol)).bytes, none⟩ := by rw [← he]
  exact .cons .move (.cons (.store hs (C61_reload_of_save win _ _ (colWF_translate boxCol_wf) hs)) .nil)

/-- Its vertex at (16, 17, 18) is at (17, 19, 21). -/
example : ∃ x', littleCol.vertexAt 0 0 0 0 = some x' ∧ x'.Finite ∧ x'.real.fn = ![17, 19, 21] := by
  have e1 : thirdVertex.real.fn + littleMove.real.fn = ![17, 19, 21] := by
    rw [thirdVertex_fn, littleMove_fn.2, little_sum]
  rw [← e1]
  refine C194_exact (acts := [.move littleMove, .store]) boxCol_wf littleCol_runs ?_ (x := thirdVertex)
    (by decide +kernel) ⟨by decide +kernel, by decide +kernel, by decide +kernel⟩ ?_
  · intro s hs
    simp only [List.mem_cons, List.not_mem_nil, or_false] at hs
    rcases hs with rfl | rfl
    · exact littleMove_fn.1
    · trivial
  · have g0 : Exactly thirdVertex.real.fn := by rw [thirdVertex_fn]; exact start_exactly
    have g1 : Exactly (thirdVertex.real.fn + littleMove.real.fn) := by rw [e1]; exact moved_exactly
    intro pre hpre
    rcases pre with _ | ⟨s, _ | ⟨t, _ | ⟨u, pre⟩⟩⟩
    · exact g0
    all_goals simp only [List.cons_prefix_cons, List.prefix_nil, reduceCtorEq, and_false] at hpre
    · obtain ⟨rfl, -⟩ := hpre
      exact g1
    · obtain ⟨rfl, rfl, -⟩ := hpre
      exact g1

/-- The triangle moved back, saved and loaded. -/
def backCol : ColMesh F64 ColFace :=
  (colTranslate ⟨littleMove.x.negate, littleMove.y.negate, littleMove.z.negate⟩ littleCol).map
    (fun x => unpackF (packF x)) fun f => { f with material := 0, m := some f.material }

theorem backCol_runs : ColRuns boxCol
    [.move littleMove, .store, .move ⟨littleMove.x.negate, littleMove.y.negate, littleMove.z.negate⟩, .store] backCol := by
  have e1 : (writeCol win (colTranslate littleMove boxCol)).err = none := by decide +kernel
  have s1 : writeCol win (colTranslate littleMove boxCol) =
      ⟨(writeCol win (colTranslate littleMove boxCol)).bytes, none⟩ := by rw [← e1]
  have l1 := C61_reload_of_save win _ _ (colWF_translate boxCol_wf) s1
  have wf1 : ColWF littleCol := colWF_loaded l1
  have e2 : (writeCol win (colTranslate ⟨littleMove.x.negate, littleMove.y.negate, littleMove.z.negate⟩ littleCol)).err =
      none := by decide +kernel
  have s2 : writeCol win (colTranslate ⟨littleMove.x.negate, littleMove.y.negate, littleMove.z.negate⟩ littleCol) =
      ⟨(writeCol win (colTranslate ⟨littleMove.x.negate, littleMove.y.negate, littleMove.z.negate⟩ littleCol)).bytes,
        none⟩ := by rw [← e2]
  exact .cons .move (.cons (.store s1 l1) (.cons .move (.cons
    (.store s2 (C61_reload_of_save win _ _ (colWF_translate wf1) s2)) .nil)))

/-- Its vertex is at (16, 17, 18) again. -/
example : ∃ x', backCol.vertexAt 0 0 0 0 = some x' ∧ x'.Finite ∧ x'.real.fn = thirdVertex.real.fn :=
  C194_there_and_back boxCol_wf backCol_runs littleMove_fn.1 (by decide +kernel)
    ⟨by decide +kernel, by decide +kernel, by decide +kernel⟩ (by rw [thirdVertex_fn]; exact start_exactly)
    (by rw [thirdVertex_fn, littleMove_fn.2, little_sum]; exact moved_exactly)

end Bf2
