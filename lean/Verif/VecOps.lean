import Verif.Edit

/-!
# The vector class

`deprecated/modVec3.py` (the class is repeated in `deprecated/modmesh.py:65-104`, where `dot` and
`cross` lack the unused `self`).  Components are floats; `isinstance(v, Vec3)` in `__truediv__` is
two functions here.
-/

namespace Bf2

/-- `-x` and `x / y` for Python floats; `none` is `ZeroDivisionError`. -/
class FDiv (F : Type) where
  neg : F → F
  div : F → F → Option F

namespace F64

/-- C double division, and Python's check for a zero divisor before it. -/
def div? (x y : F64) : Option F64 :=
  if y.mag = 0 then none
  else some <| nanOr x y <|
    if x.isInf then (if y.isInf then defaultNaN else mk' (x.neg != y.neg) inf64)
    else if y.isInf then mk' (x.neg != y.neg) 0
    else ofRat (x.neg != y.neg) (x.toRat / y.toRat)

end F64

instance : FDiv F64 := ⟨F64.negate, F64.div?⟩

namespace Vec3

variable {F : Type} [FArith F] [FDiv F]

omit [FDiv F] in
/-- `modVec3.py:19-20` -/
def dot (v1 v2 : Vec3 F) : F :=
  FArith.add (FArith.add (FArith.mul v1.x v2.x) (FArith.mul v1.y v2.y)) (FArith.mul v1.z v2.z)

omit [FDiv F] in
/-- `modVec3.py:22-26` -/
def cross (v1 v2 : Vec3 F) : Vec3 F :=
  let x := FArith.sub (FArith.mul v1.y v2.z) (FArith.mul v1.z v2.y)
  let y := FArith.sub (FArith.mul v1.x v2.x) (FArith.mul v1.x v2.z)
  let z := FArith.sub (FArith.mul v1.z v2.y) (FArith.mul v1.y v2.x)
  ⟨x, y, z⟩

omit [FDiv F] in
/-- `modVec3.py:28-29` -/
def add (a v : Vec3 F) : Vec3 F := ⟨FArith.add a.x v.x, FArith.add a.y v.y, FArith.add a.z v.z⟩

omit [FArith F] in
/-- `modVec3.py:31-32` -/
def neg (a : Vec3 F) : Vec3 F := ⟨FDiv.neg a.x, FDiv.neg a.y, FDiv.neg a.z⟩

/-- `modVec3.py:34-35` -/
def sub (a v : Vec3 F) : Vec3 F := a.add v.neg

omit [FArith F] in
/-- `modVec3.py:38-40` -/
def divVec (a v : Vec3 F) : Except Err (Vec3 F) :=
  match FDiv.div a.x v.x, FDiv.div a.y v.y, FDiv.div a.z v.z with
  | some x, some y, some z => .ok ⟨x, y, z⟩
  | _, _, _ => .error .zeroDivisionError

omit [FArith F] in
/-- `modVec3.py:41-42` -/
def divScalar (a : Vec3 F) (v : F) : Except Err (Vec3 F) :=
  match FDiv.div a.x v, FDiv.div a.y v, FDiv.div a.z v with
  | some x, some y, some z => .ok ⟨x, y, z⟩
  | _, _, _ => .error .zeroDivisionError

end Vec3

end Bf2
