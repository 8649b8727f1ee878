import Verif.OldEqualLemmas
import Verif.OldLemmas
import Verif.Sample

/-!
# Equality in `/repo/deprecated/modmesh.py`: C107
-/

namespace Bf2

/-- Entries of the attribute table compare equal exactly when they are the same. -/
theorem C107_vertattrib_equal (a b : VAttr) : oldEqVAttr a b = true ↔ a = b := by
  obtain ⟨a1, a2, a3, a4⟩ := a
  obtain ⟨b1, b2, b3, b4⟩ := b
  simp only [oldEqVAttr, decide_eq_true_eq, Prod.mk.injEq, VAttr.mk.injEq]
  exact ⟨fun ⟨h1, h2, h3, h4⟩ => ⟨h1.symm, h2.symm, h3.symm, h4.symm⟩,
    fun ⟨h1, h2, h3, h4⟩ => ⟨h1.symm, h2.symm, h3.symm, h4.symm⟩⟩

/-- Materials compare equal exactly when all fields agree, floats as numbers; unlike in the package
(C53) this includes `mmax`. -/
theorem C107_material_equal (a b : Mat F64) : oldEqMat a b = true ↔
    MatEqual a b ∧ NumsEq (optFloats a.mmax) (optFloats b.mmax) := oldEqMat_iff a b

/-- Materials that are equal for the deprecated module are equal for the package, not the other way
round. -/
theorem C107_material_stricter : (∀ a b, oldEqMat a b = true → eqMat a b = .ok true) ∧
    ∃ a b, eqMat a b = .ok true ∧ oldEqMat a b = false := by
  refine ⟨fun a b h => (eqMat_true a b).2 ((oldEqMat_iff a b).1 h).1,
    { matOf (0, 0, 0, 0) with mmax := some ⟨flt 0, flt 0, flt 0⟩ },
    { matOf (0, 0, 0, 0) with mmax := some ⟨flt 0, flt 0, flt 1⟩ }, ?_⟩
  decide +kernel

/-- Lods compare equal exactly when all fields agree, floats as numbers, and neither has a rig. -/
theorem C107_lod_equal (a b : OldLod F64) : oldEqLod a b = true ↔ OldLodEqual a b := oldEqLod_iff a b

/-- Geoms compare equal exactly when their lods do, one by one. -/
theorem C107_geom_equal (a b : OldGeom F64) : oldEqGeom a b = true ↔
    a.lodnum = b.lodnum ∧ List.Forall₂ OldLodEqual a.lods b.lods := oldEqGeom_iff a b

/-- The geoms of two objects loaded from one file compare equal exactly when no lod has a rig, and no
NaN among its bounds, pivot, node and material bounds. -/
theorem C107_loaded_twice (pl : Plat) (k : Kind) (file : Bytes) (o o' : OldMesh F64)
    (h : oldLoad pl k file = .ok o) (h' : oldLoad pl k file = .ok o') :
    objsEq oldEqGeom o.geoms o'.geoms = true ↔
      ∀ g ∈ o.geoms, ∀ l ∈ g.lods, l.rigs = [] ∧ ∀ x ∈ l.floats, F64.isNaN x = false := by
  rw [h] at h'
  obtain rfl : o = o' := by injection h'
  rw [objsEq_iff oldEqGeom_iff, List.forall₂_same]
  simp only [List.forall₂_same, true_and, oldLodEqual_self]

/-- A lod with a rig is not equal to any other lod, not even to a copy of itself. -/
theorem C107_rigs_never_equal (a b : OldLod F64) (h : a.rigs ≠ []) : oldEqLod a b = false := by
  rw [Bool.eq_false_iff, ne_eq, oldEqLod_iff]
  exact fun he => h he.rigs.1

/-- The sample mesh loaded twice. -/
example : (oldLoad (F := F64) win staticKind evilBox).toOption.map
    (fun o => objsEq oldEqGeom o.geoms o.geoms) = some true := by decide +kernel

/-- A lod with one rig of no bone: not equal to itself here, equal to itself in the package. -/
example :
    let l : Lod F64 :=
      { min := ⟨flt 0, flt 0, flt 0⟩, max := ⟨flt 1, flt 1, flt 1⟩, pivot := none, rignum := 1,
        rigs := [⟨0, []⟩], nodenum := 0, nodes := [], matnum := 0, materials := [] }
    eqLod l l = .ok true ∧ oldEqLod (l.old skinnedKind 0) (l.old skinnedKind 0) = false := by
  decide +kernel

/-- A material with a NaN bound is not equal to itself loaded again. -/
example : oldEqMat { matOf (0, 0, 0, 0) with mmax := some ⟨flt 0, flt 0, unpackF 0x7fc00000⟩ }
    { matOf (0, 0, 0, 0) with mmax := some ⟨flt 0, flt 0, unpackF 0x7fc00000⟩ } = false ∧
    oldEqMat (matOf (0, 1, 2, 3)) (matOf (0, 1, 2, 3)) = true ∧
    oldEqMat (matOf (0, 1, 2, 3)) (matOf (0, 1, 2, 4)) = false := by
  decide +kernel

end Bf2
