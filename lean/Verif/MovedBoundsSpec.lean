import Verif.EditSpec
import Verif.FloatSpec

/-!
# Bounds of a moved mesh
-/

namespace Bf2

/-- All positions, of three floats at float `o` of each vertex, are finite. -/
def FinitePositions (vs o : Nat) (m : Mesh F64) : Prop :=
  ∀ (v : Nat) (x : Vec3 F64), vec3At m.vertices (v * vs + o) = some x → ∀ c, (x.comp c).isFin = true

/-- The box `mn'`, `mx'` lies within the box `mn`, `mx` moved by `d` and extended to the origin, and ends with
it wherever `mn`, `mx` does not end at the origin. -/
def MovedBox (d mn mx mn' mx' : Vec3 F64) : Prop :=
  ∀ c, (mx'.comp c).value ≤ max 0 (F64.add (mx.comp c) (d.comp c)).value ∧
    (0 < (mx.comp c).value → (mx'.comp c).value = max 0 (F64.add (mx.comp c) (d.comp c)).value) ∧
    min 0 (F64.add (mn.comp c) (d.comp c)).value ≤ (mn'.comp c).value ∧
    ((mn.comp c).value < 0 → (mn'.comp c).value = min 0 (F64.add (mn.comp c) (d.comp c)).value)

/-- So do the bounds of all lods and materials. -/
def BoundsMoved (d : Vec3 F64) (m m' : Mesh F64) : Prop :=
  List.Forall₂ (fun g g' : Geom F64 => List.Forall₂ (fun l l' : Lod F64 =>
      MovedBox d l.min l.max l'.min l'.max ∧
      List.Forall₂ (fun a a' : Mat F64 => ∃ mn mx mn' mx', a.mmin = some mn ∧ a.mmax = some mx ∧
        a'.mmin = some mn' ∧ a'.mmax = some mx' ∧ MovedBox d mn mx mn' mx') l.materials l'.materials)
    g.lods g'.lods) m.geoms m'.geoms

end Bf2
