import Verif.Props.Order
import Verif.Props.OldDrift

/-!
# C182 for the deprecated visible-mesh module
-/

namespace Bf2

/-- **C182.** Moves of the deprecated module (`modmesh.py`) keep the order of vertices along each axis, and equal
coordinates equal. -/
theorem C182_deprecated [Libm F64] {vs q v w : Nat} {o o' : OldMesh F64} {m : Mesh F64} {p : VAttr} {acts : List Act}
    {x y : Vec3 F64} (twins : Twins vs o m) (runs : OldRuns o acts o') (noTurn : ∀ a b c, Act.turn a b c ∉ acts)
    (fine : ∀ d, Act.move d ∈ acts → d.Finite) (nz : ∀ s ∈ acts, s.NoMinus) (first : FirstPosition o.vattrs p)
    (start : StartsAt o.vertformat p q) (hx : vec3At o.vertices (v * vs + q) = some x)
    (hy : vec3At o.vertices (w * vs + q) = some y) :
    ∃ x' y', vec3At o'.vertices (v * vs + q) = some x' ∧ vec3At o'.vertices (w * vs + q) = some y' ∧
      ∀ c : Fin 3, (x.comp c = y.comp c → x'.comp c = y'.comp c) ∧
        ((x'.comp c).isFin = true → (y'.comp c).isFin = true → (x.comp c).value ≤ (y.comp c).value →
          (x'.comp c).value ≤ (y'.comp c).value) := by
  have fine' : ∀ s ∈ acts, s.Fine 0 := by
    intro s hs
    cases s with
    | move d => exact fine d hs
    | turn a b c => exact absurd hs (noTurn a b c)
    | update => trivial
    | store => trivial
  obtain ⟨m', r, t⟩ := runs.twins twins fine' nz
  have h := twins.inStep
  rw [h.attrs] at first
  rw [h.vertformat] at start
  rw [h.vertices] at hx hy
  rw [t.inStep.vertices]
  exact C182_order h.new first start noTurn fine r hx hy

attribute [local instance] quarterTurn in
/-- The third and the first corner of `Box()`, moved by a third: the third is still not beyond the first along the
first axis, and both still have the same depth. -/
example : ∃ x' y', vec3At slidBox.vertices (2 * 12 + 0) = some x' ∧
    vec3At slidBox.vertices (0 * 12 + 0) = some y' ∧ x'.comp 2 = y'.comp 2 ∧
    ((x'.comp 0).isFin = true → (y'.comp 0).isFin = true → (x'.comp 0).value ≤ (y'.comp 0).value) := by
  obtain ⟨x', y', h1, h2, h⟩ := C182_deprecated (acts := [.move thirdStep]) (o' := slidBox) (p := ⟨0, 0, 2, 0⟩) (q := 0)
    (v := 2) (w := 0) (x := ⟨hf (-1), hf 0, hf (-1)⟩) (y := cornerBox) twinBox
    (.cons (.move (Prod.ext rfl (by decide +kernel))) .nil) (by simp)
    (by
      intro d hd
      simp only [List.mem_singleton, Act.move.injEq] at hd
      subst hd
      exact ⟨by decide +kernel, by decide +kernel, by decide +kernel⟩)
    (by
      intro s hs
      simp only [List.mem_singleton] at hs
      subst hs
      show ∀ t ∈ thirdStep.toList, t ≠ minusZero
      decide +kernel)
    ⟨[], _, rfl, by decide, by decide⟩ (by decide +kernel) (by decide +kernel) (by decide +kernel)
  exact ⟨x', y', h1, h2, (h 2).1 (by decide +kernel), fun f g => (h 0).2 f g (by decide +kernel)⟩

/-- Those numbers are finite. -/
example : (vec3At slidBox.vertices (2 * 12 + 0)).any (fun x => (x.comp 0).isFin) = true ∧
    (vec3At slidBox.vertices (0 * 12 + 0)).any (fun x => (x.comp 0).isFin) = true := by
  decide +kernel

end Bf2
