import Verif.Nums
import Verif.OldEdit
import Verif.ColMesh

/-!
# Integers as offsets and angles in `/repo/deprecated`

`OldEdit` and `ColMesh` have the offsets and angles as floats; here each number may be an `int` or a `float`, as in
`Nums`.  `sum((x, d))` with a float `x` and an `int` `d` adds the double that stands for `d`, whether CPython's loop for
floats takes it as a C long or leaves the loop and adds the objects.  Nothing formats the offset, so the number of
digits does not matter.
-/

namespace Bf2

/-- `[sum(_) for _ in zip(*[position, offset])]`, `modmesh.py:684` -/
def sumNums : List F64 → List Num → Except Err (List F64)
  | x :: xs, n :: ns =>
    match n.toDouble with
    | .error e => .error e
    | .ok d =>
      match sumNums xs ns with
      | .error e => .error e
      | .ok l => .ok (FArith.add (FArith.add FArith.zero x) d :: l)
  | _, _ => .ok []

/-- `modmesh.py:682-688` -/
def oldTranslateVertexNum (offset : List Num) (v : VObj F64) : Except Err (VObj F64) :=
  match v 0 with
  | none => .error .attributeError
  | some p =>
    match sumNums p offset with
    | .error e => .error e
    | .ok l => .ok (v.set 0 l)

/-- `modmesh.py:674-691` -/
def oldTranslateNum (m : OldMesh F64) (offset : List Num) : OldMesh F64 × Option Err :=
  oldEdit (oldTranslateVertexNum offset) m

/-- `modmesh.py:693-739` -/
def oldRotateNum [Libm F64] (m : OldMesh F64) (rotation : List Num) : OldMesh F64 × Option Err :=
  match radiansAt rotation 0 with
  | .error e => (m, some e)
  | .ok yaw =>
    match radiansAt rotation 1 with
    | .error e => (m, some e)
    | .ok pitch =>
      match radiansAt rotation 2 with
      | .error e => (m, some e)
      | .ok roll => oldEdit (oldRotateVertex ⟨yaw, pitch, roll⟩) m

/-- `x + n` for a float and a number -/
def plusNum (x : F64) (n : Num) : Except Err F64 :=
  match n.toDouble with
  | .error e => .error e
  | .ok d => .ok (FArith.add x d)

/-- `modVec3.py:27-28` with a vector of numbers on the right -/
def Vec3.plusNums (v : Vec3 F64) (off : Vec3 Num) : Except Err (Vec3 F64) :=
  match plusNum v.x off.x with
  | .error e => .error e
  | .ok x =>
    match plusNum v.y off.y with
    | .error e => .error e
    | .ok y =>
      match plusNum v.z off.z with
      | .error e => .error e
      | .ok z => .ok ⟨x, y, z⟩

/-- A loop over a list that changes its elements in place: what the list is when the loop ends, and the exception. -/
def inPlace {α : Type} (f : α → α × Option Err) : List α → List α × Option Err
  | [] => ([], none)
  | a :: as =>
    match f a with
    | (a', some e) => (a' :: as, some e)
    | (a', none) => (a' :: (inPlace f as).1, (inPlace f as).2)

section
variable {φ : Type}

/-- `lod.vertices[id_vert] = vertex + offset`, `modcolmesh.py:466` -/
def moveVertexNum (off : Vec3 Num) (v : Vec3 F64) : Vec3 F64 × Option Err :=
  match v.plusNums off with
  | .error e => (v, some e)
  | .ok w => (w, none)

/-- `modcolmesh.py:465-466` -/
def moveLodNum (off : Vec3 Num) (l : ColLod F64 φ) : ColLod F64 φ × Option Err :=
  ({ l with vertices := (inPlace (moveVertexNum off) l.vertices).1 }, (inPlace (moveVertexNum off) l.vertices).2)

/-- `modcolmesh.py:464-466` -/
def moveSubNum (off : Vec3 Num) (s : ColSub F64 φ) : ColSub F64 φ × Option Err :=
  ({ s with lods := (inPlace (moveLodNum off) s.lods).1 }, (inPlace (moveLodNum off) s.lods).2)

/-- `modcolmesh.py:463-466` -/
def moveGeomNum (off : Vec3 Num) (g : ColGeom F64 φ) : ColGeom F64 φ × Option Err :=
  ({ g with subgeoms := (inPlace (moveSubNum off) g.subgeoms).1 }, (inPlace (moveSubNum off) g.subgeoms).2)

/-- `modcolmesh.py:461-466` -/
def colTranslateNum (off : Vec3 Num) (m : ColMesh F64 φ) : ColMesh F64 φ × Option Err :=
  ({ m with geoms := (inPlace (moveGeomNum off) m.geoms).1 }, (inPlace (moveGeomNum off) m.geoms).2)

end

end Bf2
