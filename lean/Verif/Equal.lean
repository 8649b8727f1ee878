import Verif.Mesh

/-!
# Model of the `__eq__` methods of `/repo/bf2mesh/visiblemesh.py`

Python compares tuples and lists by identity of the elements first, then by `==`.  The two operands
are assumed not to share a float object that is a NaN (they come from different files, or are
different parts of a mesh), so elements are compared by `==`.

Where the arguments of a `logging.debug` call can raise, they are modelled; the others only format
integers with `%d`, floats with `%g`, or anything with `%s` and `%r`.
-/

namespace Bf2

/-- `a == b` for tuples of three floats. -/
def vec3Eq (a b : Vec3 F64) : Bool := a.x.feq b.x && a.y.feq b.y && a.z.feq b.z

def vec4Eq (a b : Vec4 F64) : Bool := a.x.feq b.x && a.y.feq b.y && a.z.feq b.z && a.w.feq b.w

/-- `a == b` for matrices. -/
def mat4Eq (a b : Mat4 F64) : Bool :=
  vec4Eq a.r0 b.r0 && vec4Eq a.r1 b.r1 && vec4Eq a.r2 b.r2 && vec4Eq a.r3 b.r3

/-- `a == b` where either may be `None`. -/
def optVecEq : Option (Vec3 F64) → Option (Vec3 F64) → Bool
  | none, none => true
  | some a, some b => vec3Eq a b
  | _, _ => false

/-- `visiblemesh.py:629-635` -/
def eqHead (a b : Head) : Bool :=
  if a.u1 ≠ b.u1 then false
  else if a.version ≠ b.version then false
  else if a.u3 ≠ b.u3 then false
  else if a.u4 ≠ b.u4 then false
  else if a.u5 ≠ b.u5 then false
  else true

/-- `visiblemesh.py:975-981` -/
def eqVAttr (a b : VAttr) : Bool :=
  if a.flag ≠ b.flag then false
  else if a.offset ≠ b.offset then false
  else if a.vartype ≠ b.vartype then false
  else if a.usage ≠ b.usage then false
  else true

/-- `'%d' % x` for a float: the exception. -/
def fmtD (x : F64) : Option Err :=
  if x.isNaN then some .valueError else if x.isInf then some .overflowError else none

/-- The first exception of formatting these floats with `%d`. -/
def fmtAll : List F64 → Option Err
  | [] => none
  | x :: xs =>
    match fmtD x with
    | some e => some e
    | none => fmtAll xs

/-- The arguments `(*a, *b)`: unpacking `None` is a `TypeError`. -/
def unpack6 : Option (Vec3 F64) → Option (Vec3 F64) → Except Err (List F64)
  | some a, some b => .ok [a.x, a.y, a.z, b.x, b.y, b.z]
  | _, _ => .error .typeError

/-- The comparison of `mmin`, with the `%d` formatting of its debug message. -/
def eqBounds (a b : Option (Vec3 F64)) : Except Err Bool :=
  if optVecEq a b = false then
    match unpack6 a b with
    | .error e => .error e
    | .ok l =>
      match fmtAll l with
      | some e => .error e
      | none => .ok false
  else .ok true

/-- `visiblemesh.py:669-706` -/
def eqMat (a b : Mat F64) : Except Err Bool :=
  if a.alphamode ≠ b.alphamode then .ok false
  else if a.fxfile ≠ b.fxfile then .ok false
  else if a.technique ≠ b.technique then .ok false
  else if a.mapnum ≠ b.mapnum then .ok false
  else if a.maps ≠ b.maps then .ok false
  else if a.vstart ≠ b.vstart then .ok false
  else if a.istart ≠ b.istart then .ok false
  else if a.inum ≠ b.inum then .ok false
  else if a.vnum ≠ b.vnum then .ok false
  else if a.u4 ≠ b.u4 then .ok false
  else if a.u5 ≠ b.u5 then .ok false
  else eqBounds a.mmin b.mmin

/-- `visiblemesh.py:784-787` -/
def eqGeom (a b : Geom F64) : Bool :=
  if a.lodnum ≠ b.lodnum then false
  else if a.lods.length ≠ b.lods.length then false
  else true

/-- The loops `for i, x in enumerate(xs): if x != other[i]: return False`; `true` when the loop ends
without returning. -/
def eqEach {α : Type} (eq : α → α → Except Err Bool) : List α → List α → Except Err Bool
  | [], _ => .ok true
  | _ :: _, [] => .error .indexError
  | x :: xs, y :: ys =>
    match eq x y with
    | .error e => .error e
    | .ok false => .ok false
    | .ok true => eqEach eq xs ys

/-- `visiblemesh.py:942-949` -/
def eqBone (a b : Bone F64) : Except Err Bool :=
  if a.id ≠ b.id then .ok false
  else if mat4Eq a.matrix b.matrix = false then .ok false
  else .ok true

/-- `visiblemesh.py:911-920` -/
def eqRig (a b : Rig F64) : Except Err Bool :=
  if a.bonenum ≠ b.bonenum then .ok false
  else eqEach eqBone a.bones b.bones

/-- `visiblemesh.py:839-847` -/
def eqLodMats (a b : Lod F64) : Except Err Bool :=
  if a.matnum ≠ b.matnum then .ok false
  else eqEach eqMat a.materials b.materials

/-- `visiblemesh.py:831-847` -/
def eqLodNodes (a b : Lod F64) : Except Err Bool :=
  if a.nodenum ≠ b.nodenum then .ok false
  else
    match eqEach (fun x y => .ok (mat4Eq x y)) a.nodes b.nodes with
    | .error e => .error e
    | .ok false => .ok false
    | .ok true => eqLodMats a b

/-- `visiblemesh.py:823-847` -/
def eqLodRigs (a b : Lod F64) : Except Err Bool :=
  if a.rignum ≠ b.rignum then .ok false
  else
    match eqEach eqRig a.rigs b.rigs with
    | .error e => .error e
    | .ok false => .ok false
    | .ok true => eqLodNodes a b

/-- `visiblemesh.py:813-847` -/
def eqLod (a b : Lod F64) : Except Err Bool :=
  if vec3Eq a.min b.min = false then .ok false
  else if vec3Eq a.max b.max = false then .ok false
  else if optVecEq a.pivot b.pivot = false then
    match unpack6 a.pivot b.pivot with
    | .error e => .error e
    | .ok _ => .ok false
  else eqLodRigs a b

end Bf2
