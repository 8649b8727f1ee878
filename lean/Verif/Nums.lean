import Verif.Edit

/-!
# Integers as offsets and angles

`translate` and `rotate` take a sequence of numbers.  `Edit` has them with floats; here each number may be
an `int` or a `float`.  An `int` that takes part in float arithmetic, or is passed to `math.radians`, is
converted to a double, correctly rounded; when the result would be infinite, CPython raises `OverflowError`.

Both methods first format the sequence for the log (`visiblemesh.py:280`, `:358`).  CPython 3.11 and later
(and patched older versions) refuse to convert an `int` of more than 4300 digits to text, with `ValueError`;
`limit` is that number of digits, `none` for no limit.
-/

namespace Bf2

inductive Num
  | int (i : Int)
  | float (x : F64)
  deriving DecidableEq

/-- Conversion to a double. -/
def Num.toDouble : Num → Except Err F64
  | .float x => .ok x
  | .int i => if (F64.ofRat false i).isInf then .error .overflowError else .ok (F64.ofRat false i)

/-- `str(offset)` raises. -/
def strFails (limit : Option Nat) (l : List Num) : Bool :=
  l.any fun
    | .float _ => false
    | .int i => limit.any fun n => decide (10 ^ n ≤ i.natAbs)

/-- `visiblemesh.py:307-308`: the log message reads `vertex[i]` first. -/
def addNum (vertex : List F64) (i : Int) (value : Num) : Except Err (List F64) :=
  match pyPos vertex.length i with
  | none => .error .indexError
  | some j =>
    match value.toDouble with
    | .error e => .error e
    | .ok d => .ok (vertex.modify j fun x => F64.add x d)

/-- `visiblemesh.py:306-308`, from `valueId = k` on. -/
def addNums (o : Int) : Nat → List Num → List F64 → Except Err (List F64)
  | _, [], vertex => .ok vertex
  | k, v :: vs, vertex =>
    match addNum vertex (o + k) v with
    | .error e => .error e
    | .ok vertex' => addNums o (k + 1) vs vertex'

/-- `visiblemesh.py:301-308` -/
def translateVertexNum (m : Mesh F64) (offset : List Num) (vertex : List F64) :
    Except Err (List F64) :=
  match posOffset m.vertformat m.vattrs with
  | .error e => .error e
  | .ok none =>
    match offset with
    | [] => .ok vertex
    | _ :: _ => .error .unboundLocalError
  | .ok (some o) => addNums o 0 offset vertex

/-- `visiblemesh.py:279-314` -/
def translateNum (limit : Option Nat) (m : Mesh F64) (offset : List Num) : Mesh F64 × Option Err :=
  if strFails limit offset then (m, some .valueError)
  else setVertices m (editVertices (translateVertexNum m offset) m)

/-- `radians(float3[k])`, `visiblemesh.py:360-362` -/
def radiansAt [Libm F64] (rotation : List Num) (k : Nat) : Except Err F64 :=
  match rotation[k]? with
  | none => .error .indexError
  | some n =>
    match n.toDouble with
    | .error e => .error e
    | .ok d => .ok (Libm.radians d)

/-- `visiblemesh.py:316-398` -/
def rotateNum [Libm F64] (limit : Option Nat) (m : Mesh F64) (rotation : List Num) :
    Mesh F64 × Option Err :=
  if strFails limit rotation then (m, some .valueError)
  else
    match radiansAt rotation 0 with
    | .error e => (m, some e)
    | .ok yaw =>
      match radiansAt rotation 1 with
      | .error e => (m, some e)
      | .ok pitch =>
        match radiansAt rotation 2 with
        | .error e => (m, some e)
        | .ok roll => setVertices m (editVertices (rotateVertex m ⟨yaw, pitch, roll⟩) m)

end Bf2
