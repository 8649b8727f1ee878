import Verif.DriftSpec
import Verif.TurnSpec
import Verif.TwinSpec

/-!
# Edits one after the other in the deprecated module (C173)
-/

namespace Bf2

/-- One edit of the deprecated module, raising nothing. -/
inductive OldDoes [Libm F64] : OldMesh F64 → Act → OldMesh F64 → Prop
  | move {o o' : OldMesh F64} {d : Vec3 F64} : oldTranslate o [d.x, d.y, d.z] = (o', none) → OldDoes o (.move d) o'
  | turn {o o' : OldMesh F64} {y p r : F64} : oldRotate o [y, p, r] = (o', none) → OldDoes o (.turn y p r) o'

/-- Edits one after the other. -/
inductive OldRuns [Libm F64] : OldMesh F64 → List Act → OldMesh F64 → Prop
  | nil {o : OldMesh F64} : OldRuns o [] o
  | cons {o o1 o2 : OldMesh F64} {s : Act} {ss : List Act} : OldDoes o s o1 → OldRuns o1 ss o2 → OldRuns o (s :: ss) o2

/-- No distance is the double `-0.0`. -/
def Act.NoMinus : Act → Prop
  | .move d => ∀ t ∈ d.toList, t ≠ minusZero
  | _ => True

/-- The fields of a mesh object of the deprecated module that say where things are in a vertex. -/
structure VectorOf (o : OldMesh F64) (a : VAttr) (q : Nat) : Prop where
  mem : a ∈ o.vattrs
  vector : VectorAttr a
  start : StartsAt o.vertformat a q

end Bf2
