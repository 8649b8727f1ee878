import Verif.OldDriftSpec
import Verif.Props.Twin
import Verif.Props.Drift
import Verif.Props.Turn

/-! # Lemmas for C173 -/

namespace Bf2

theorem setVertices_kind (m : Mesh F64) (x : Except Err (List F64)) : (setVertices m x).1.kind = m.kind := by
  unfold setVertices
  rcases x with _ | _ <;> rfl

theorem translate_kind (m : Mesh F64) (d : List F64) : (translate m d).1.kind = m.kind :=
  setVertices_kind m _

theorem rotate_kind [Libm F64] (m : Mesh F64) (d : List F64) : (rotate m d).1.kind = m.kind := by
  unfold rotate
  split
  · exact setVertices_kind m _
  · rfl

theorem OldDoes.twins [Libm F64] {vs : Nat} {ε : ℝ} {o o1 : OldMesh F64} {s : Act} (does : OldDoes o s o1)
    {m : Mesh F64} (h : Twins vs o m) (fine : s.Fine ε) (nz : s.NoMinus) :
    ∃ m1, Does m s m1 ∧ Twins vs o1 m1 ∧ m1.kind = m.kind := by
  cases does with
  | @move _ d e =>
    have nz' : ∀ t ∈ d.toList, t ≠ F64.zero.negate := nz
    have e2 := ((C171_no_errors h).1 d nz').2
    have t := h.translate d nz'
    have e1 : oldTranslate o d.toList = (o1, none) := e
    rw [e1] at t
    exact ⟨_, .move (pair_snd e2), t, translate_kind m _⟩
  | @turn _ y p r e =>
    obtain ⟨⟨_, _, c1, s1, -⟩, ⟨_, _, c2, s2, -⟩, ⟨_, _, c3, s3, -⟩⟩ := fine
    have hd : ∀ a ∈ [y, p, r], (Libm.cos (Libm.radians a)).isSome ∧ (Libm.sin (Libm.radians a)).isSome := by
      intro a ha
      simp only [List.mem_cons, List.not_mem_nil, or_false] at ha
      rcases ha with rfl | rfl | rfl
      · rw [c1, s1]; exact ⟨rfl, rfl⟩
      · rw [c2, s2]; exact ⟨rfl, rfl⟩
      · rw [c3, s3]; exact ⟨rfl, rfl⟩
    have e2 := ((C171_no_errors h).2.1 y p r [] hd).2
    have t := h.rotate y p r [] hd
    rw [e] at t
    exact ⟨_, .turn (pair_snd e2), t, rotate_kind m _⟩

theorem OldRuns.twins' [Libm F64] {vs : Nat} {ε : ℝ} {o o' : OldMesh F64} {acts : List Act} (runs : OldRuns o acts o')
    {m : Mesh F64} (h : Twins vs o m) (fine : ∀ s ∈ acts, s.Fine ε) (nz : ∀ s ∈ acts, s.NoMinus) :
    ∃ m', Runs m acts m' ∧ Twins vs o' m' ∧ m'.kind = m.kind := by
  induction runs generalizing m with
  | nil => exact ⟨m, .nil, h, rfl⟩
  | @cons o o1 o2 s ss does _ ih =>
    obtain ⟨m1, d1, t1, k1⟩ := does.twins h (fine _ (List.mem_cons_self ..)) (nz _ (List.mem_cons_self ..))
    obtain ⟨m2, r2, t2, k2⟩ := ih t1 (fun s hs => fine s (List.mem_cons_of_mem _ hs))
      (fun s hs => nz s (List.mem_cons_of_mem _ hs))
    exact ⟨m2, .cons d1 r2, t2, k2.trans k1⟩

theorem OldRuns.twins [Libm F64] {vs : Nat} {ε : ℝ} {o o' : OldMesh F64} {acts : List Act} (runs : OldRuns o acts o')
    {m : Mesh F64} (h : Twins vs o m) (fine : ∀ s ∈ acts, s.Fine ε) (nz : ∀ s ∈ acts, s.NoMinus) :
    ∃ m', Runs m acts m' ∧ Twins vs o' m' := by
  obtain ⟨m', r, t, -⟩ := runs.twins' h fine nz
  exact ⟨m', r, t⟩

theorem OldRuns.kind [Libm F64] {vs : Nat} {ε : ℝ} {o o' : OldMesh F64} {acts : List Act} (runs : OldRuns o acts o')
    {m : Mesh F64} (h : Twins vs o m) (fine : ∀ s ∈ acts, s.Fine ε) (nz : ∀ s ∈ acts, s.NoMinus) : o'.kind = o.kind := by
  obtain ⟨m', -, t, k⟩ := runs.twins' h fine nz
  rw [t.inStep.kind, h.inStep.kind, k]

theorem Runs.append [Libm F64] {m m1 m2 : Mesh F64} {ss ts : List Act} (h : Runs m ss m1) (h' : Runs m1 ts m2) :
    Runs m (ss ++ ts) m2 := by
  induction h with
  | nil => exact h'
  | cons d _ ih => exact .cons d (ih h')

theorem oldSave_vertices {pl : Plat} {o : OldMesh F64} (wf : OldWF o) (saved : (oldSave pl o).err = none) :
    ∃ out r, oldSave pl o = ⟨out, none⟩ ∧ load pl o.kind out = .ok r ∧ r.vertices = o.vertices.map stored := by
  obtain ⟨out, h1, h2⟩ := wf.save (wf.save_err.1 saved)
  exact ⟨out, _, h1, h2, rfl⟩

theorem out_eq {x : Out} (h : x.err = none) : x = ⟨x.bytes, none⟩ := by
  rw [← h]

end Bf2
