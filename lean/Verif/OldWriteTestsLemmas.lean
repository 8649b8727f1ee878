import Verif.OldWriteTests
import Verif.OldStagesSpec
import Verif.OldEqualLemmas
import Verif.OldTestsLemmas
import Verif.NumsLemmas
import Verif.SizeSpec
import Verif.OldSpec

/-! # Lemmas for the old write tests (C159) -/

namespace Bf2

variable {F G : Type}

theorem vec3Eq_self (a : Vec3 F64) : vec3Eq a a = true ↔ ∀ x ∈ a.floats, x.isNaN = false := by
  rw [vec3Eq_iff]
  unfold NumsEq
  rw [List.forall₂_same]
  exact forall₂_congr fun x _ => numEq_self x

theorem mat4Eq_self (a : Mat4 F64) : mat4Eq a a = true ↔ ∀ x ∈ a.floats, x.isNaN = false := by
  rw [mat4Eq_iff]
  unfold NumsEq
  rw [List.forall₂_same]
  exact forall₂_congr fun x _ => numEq_self x

theorem optMatEq_self (a : Option (Mat4 F64)) :
    optMatEq a a = true ↔ ∀ n ∈ a, ∀ x ∈ n.floats, x.isNaN = false := by
  cases a with
  | none => simp [optMatEq]
  | some n => simpa [optMatEq] using mat4Eq_self n

theorem polycount_eq (l : OldLod F) : l.polycount.feq l.polycount = true := by
  rw [feq_iff, numEq_self]
  exact (ofRat_rounded _ _).notNaN

theorem oldEqVAttr_self (a : VAttr) : oldEqVAttr a a = true := by simp [oldEqVAttr]

theorem assertVattrs_self {p : OldPart F64} {o : OldMesh F64} (h : p.vattrs = o.vattrs) :
    assertVattrs p o = .ok true := by
  unfold assertVattrs
  rw [assertEach_true]
  rintro ⟨i, a⟩ ha
  rw [numbered_mem] at ha
  simp only at ha ⊢
  rw [h, ha]
  simp only [oldEqVAttr_self]

theorem assertMaterials_self {p : OldPart F64} {o : OldMesh F64} (h : p.geoms = o.geoms) :
    assertMaterials p o = .ok true := by
  unfold assertMaterials
  rw [assertEach_true]
  rintro ⟨i, g⟩ hg
  rw [numbered_mem] at hg
  rw [assertEach_true]
  rintro ⟨j, l⟩ hl
  rw [numbered_mem] at hl
  simp only at hg hl ⊢
  rw [show partLod p.geoms i j = .ok l by
    unfold partLod
    rw [h, hg]
    simp only
    rw [hl]]
  simp [thenAssert, polycount_eq]

/-! ## The length of what is saved -/

theorem restSize_map (pl : Plat) (f : F → G) (m : Mesh F) : (m.map f).restSize pl = m.restSize pl := by
  unfold Mesh.restSize Mesh.map
  simp only [List.length_map, List.map_map]
  congr 2
  refine List.map_congr_left fun g _ => ?_
  simp only [Function.comp, Geom.info, Geom.map, List.map_map]
  congr 1
  refine List.map_congr_left fun l _ => ?_
  simp only [Function.comp, LodInfo.size, Lod.info, Lod.map, List.map_map, List.length_map]
  have e1 : (Option.map (Vec3.map f) l.pivot).toList.length = l.pivot.toList.length := by
    cases l.pivot <;> rfl
  have e2 : (Rig.map f) = fun r : Rig F => { bonenum := r.bonenum, bones := r.bones.map (Bone.map f) } := rfl
  rw [e1, e2]
  simp only [Function.comp_def, List.length_map, Mat.info, Mat.map]

theorem restSize_lastNodes (pl : Plat) (m : Mesh F) : m.lastNodes.restSize pl = m.restSize pl := by
  unfold Mesh.restSize Mesh.lastNodes
  simp only [List.length_map, List.map_map]
  congr 2
  refine List.map_congr_left fun g _ => ?_
  simp only [Function.comp, Geom.info, Geom.lastNodes, List.map_map]
  congr 1
  refine List.map_congr_left fun l _ => ?_
  have e : l.lastNodes.nodes.length = l.nodes.length := by
    unfold Lod.lastNodes
    rcases h : l.nodes.getLast? with _ | n
    · simp only [List.getLast?_eq_none_iff] at h
      rw [h]
    · simp only [List.length_map]
  simp only [Function.comp, LodInfo.size, Lod.info, e]
  rfl

theorem dataSize_map (f : F → G) (m : Mesh F) : (m.map f).dataSize = m.dataSize := by
  simp [Mesh.dataSize, Mesh.map]

end Bf2
