import Verif.Equal
import Verif.OldMesh

/-!
# Model of the `__eq__` methods of `/repo/deprecated/modmesh.py`

As in `Equal`, the two operands are assumed not to share a float object that is a NaN, and here not to
share a rig either.  The lods are those of loaded meshes, whose attribute `version` is `None` (line 894)
and whose `min`, `max` are tuples.  `bf2head.__eq__` (lines 432-443) is `eqHead`.  The `print` calls
cannot raise.
-/

namespace Bf2

/-- `a == b` for lists of objects with `__eq__`. -/
def objsEq {α : Type} (eq : α → α → Bool) : List α → List α → Bool
  | [], [] => true
  | x :: xs, y :: ys => eq x y && objsEq eq xs ys
  | _, _ => false

/-- `(a.flag, ..) == b` and, since a tuple cannot be compared with a `vertattrib`, then the reflected
`b == (a.flag, ..)`, `modmesh.py:482-486`. -/
def oldEqVAttr (a b : VAttr) : Bool :=
  decide ((b.flag, b.offset, b.vartype, b.usage) = (a.flag, a.offset, a.vartype, a.usage))

/-- `modmesh.py:335-385` -/
def oldEqMat (a b : Mat F64) : Bool :=
  let equal := true
  let equal := if a.alphamode ≠ b.alphamode then false else equal
  let equal := if a.fxfile ≠ b.fxfile then false else equal
  let equal := if a.technique ≠ b.technique then false else equal
  let equal := if a.mapnum ≠ b.mapnum then false else equal
  let equal := if a.maps ≠ b.maps then false else equal
  let equal := if a.vstart ≠ b.vstart then false else equal
  let equal := if a.istart ≠ b.istart then false else equal
  let equal := if a.inum ≠ b.inum then false else equal
  let equal := if a.vnum ≠ b.vnum then false else equal
  let equal := if a.u4 ≠ b.u4 then false else equal
  let equal := if a.u5 ≠ b.u5 then false else equal
  let equal := if optVecEq a.mmin b.mmin = false then false else equal
  let equal := if optVecEq a.mmax b.mmax = false then false else equal
  equal

/-- `a == b` for the attribute `nodes`: a tuple of sixteen floats, or the empty list. -/
def optMatEq : Option (Mat4 F64) → Option (Mat4 F64) → Bool
  | none, none => true
  | some a, some b => mat4Eq a b
  | _, _ => false

/-- `modmesh.py:268-299`.  Rigs have no `__eq__`, so two rigs are equal only if they are one object. -/
def oldEqLod (a b : OldLod F64) : Bool :=
  let equal := true
  let equal := if vec3Eq a.min b.min = false then false else equal
  let equal := if vec3Eq a.max b.max = false then false else equal
  let equal := if optVecEq a.pivot b.pivot = false then false else equal
  let equal := if a.rignum ≠ b.rignum then false else equal
  let equal := if objsEq (fun _ _ => false) a.rigs b.rigs = false then false else equal
  let equal := if a.nodenum ≠ b.nodenum then false else equal
  let equal := if optMatEq a.nodes b.nodes = false then false else equal
  let equal := if a.matnum ≠ b.matnum then false else equal
  let equal := if objsEq oldEqMat a.materials b.materials = false then false else equal
  equal

/-- `modmesh.py:456-460` -/
def oldEqGeom (a b : OldGeom F64) : Bool :=
  if a.lodnum ≠ b.lodnum then false else objsEq oldEqLod a.lods b.lods

end Bf2
