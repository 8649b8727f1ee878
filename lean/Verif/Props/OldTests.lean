import Verif.OldTestsLemmas
import Verif.ColSample
import Verif.Props.ColEdit
import Verif.Props.OldEdit

/-!
# What two of the old tests assert (C131)
-/

namespace Bf2

section
variable {φ : Type}

/-- **C131.** `test_can_translate_colmesh` never raises, and passes exactly when both meshes have the same
geoms, subgeoms and lods in number, and lods as many faces, and every vertex equals (as `==` compares) the
old one plus the offset.  Faces, bounds and all the rest are not looked at. -/
theorem C131_col_passes_iff (off : Vec3 F64) (m old : ColMesh F64 φ) :
    (∃ b, colTranslateTest off m old = .ok b) ∧
    (colTranslateTest off m old = .ok true ↔
      List.Forall₂ (fun g h : ColGeom F64 φ => List.Forall₂ (fun s t : ColSub F64 φ =>
        List.Forall₂ (fun l k : ColLod F64 φ =>
          List.Forall₂ (fun v w => NumEq v.x (F64.add w.x off.x) ∧ NumEq v.y (F64.add w.y off.y) ∧
            NumEq v.z (F64.add w.z off.z)) l.vertices k.vertices ∧ l.faces.length = k.faces.length)
        s.lods t.lods) g.subgeoms h.subgeoms) m.geoms old.geoms) := by
  refine ⟨colTranslateTest_total off m old, ?_⟩
  rw [colTranslateTest_true]
  simp only [NumsEq, Vec3.floats, Vec3.plus, FArith.add, List.forall₂_cons,
    List.forall₂_nil_left_iff, and_true]

/-- **C131.** With a finite offset, as in the test, it passes on a mesh that `translate` has moved exactly
when no vertex was loaded with a NaN. -/
theorem C131_col_translate (off : Vec3 F64) (m : ColMesh F64 φ) (hx : off.x.isFin = true)
    (hy : off.y.isFin = true) (hz : off.z.isFin = true) :
    colTranslateTest off (colTranslate off m) m = .ok true ↔
      ∀ l ∈ m.lods, ∀ v ∈ l.vertices, v.x.isNaN = false ∧ v.y.isNaN = false ∧ v.z.isNaN = false := by
  rw [(C131_col_passes_iff off _ m).2]
  unfold colTranslate
  simp only [List.forall₂_map_left_iff, List.forall₂_same, Vec3.plus, FArith.add, numEq_self,
    add_isNaN hx, add_isNaN hy, add_isNaN hz, and_true, ColMesh.lods, List.mem_flatMap]
  constructor
  · rintro h l ⟨g, hg, s, hs, hl⟩ v hv
    exact h g hg s hs l hl v hv
  · intro h g hg s hs l hl v hv
    exact h l ⟨g, hg, s, hs, hl⟩ v hv

end

/-- The sample of the repository passes; so does a mesh whose faces were all replaced by one; the small
mesh with a NaN in it does not pass. -/
example :
    (((loadCol (F := F64) win evilBoxCol).toOption.map fun m =>
      let off : Vec3 F64 := ⟨flt 1, flt 0, flt 0⟩
      (colTranslateTest off (colTranslate off m) m,
        colTranslateTest off ((colTranslate off m).map id fun _ => ⟨0, 0, 0, 0, none⟩) m)) =
          some (.ok true, .ok true)) ∧
    (let off : Vec3 F64 := ⟨flt 1, flt 0, flt 0⟩
     let m : ColMesh F64 ColFace :=
      ⟨0, 10, 1, [⟨1, [⟨1, [{ triLod.map unpackF (fun _ => ⟨0, 1, 2, 0, none⟩) with
        vertices := [⟨F64.defaultNaN, flt 0, flt 0⟩] }]⟩]⟩]⟩
     colTranslateTest off (colTranslate off m) m = .ok false) := by
  decide +kernel

section
variable {F : Type}

/-- **C131.** `test_can_translate_mesh` asserts nothing: no assertion of it can fail, and its outcome is
the same whatever the vertex data after the move, in particular as if nothing had been moved. -/
theorem C131_vis_asserts_nothing (m old : OldMesh F) (data : List F) :
    oldTranslateTest m old ≠ .ok false ∧
    oldTranslateTest { m with vertices := data } old = oldTranslateTest m old := by
  constructor
  · unfold oldTranslateTest
    rcases getVertices m with e | vs
    · simp
    rcases getVertices old with e | ws
    · simp
    dsimp only
    generalize numbered vs = ps
    induction ps with
    | nil => simp [assertEach]
    | cons p ps ih =>
      rw [assertEach]
      rcases p.2 0 with _ | _
      · simp
      rcases ws[p.1]? with _ | w
      · simp
      dsimp only
      rcases w 0 with _ | _
      · simp
      exact ih
  · unfold oldTranslateTest
    rcases getVertices_sameAttrs m data with ⟨vs, ws, e1, e2, hs⟩ | ⟨e, e1, e2⟩
    · rw [e1, e2]
      dsimp only
      rcases getVertices old with e | os
      · rfl
      dsimp only
      apply assertEach_congr
      refine hs.imp fun v w h i => ?_
      have h0 := h 0
      dsimp only
      rcases hv : v 0 with _ | _ <;> rcases hw : w 0 with _ | _ <;> rw [hv, hw] at h0
      · cases h0
      · cases h0
    · rw [e1, e2]

end

/-- Moved or not, the vertices pass; here they moved. -/
example :
    let old := oldMovable (flt 0) upto12
    let m := (oldTranslate old [flt 10, flt 20, flt 30]).1
    m.vertices ≠ old.vertices ∧ oldTranslateTest m old = .ok true ∧ oldTranslateTest old old = .ok true := by
  decide +kernel

end Bf2
