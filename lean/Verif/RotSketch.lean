import Verif.Edit

/-!
# `deprecated/rotate.py`

The sketch that the `rotate` of the package grew from.  `rotate_X` prints a point and returns nothing;
the model gives the point printed.  Positions and rotations are lists of floats: indexing raises
`IndexError` on a short one and ignores what follows the third entry.
-/

namespace Bf2

section
variable {F : Type} [FArith F] [Libm F]

/-- `cos(angle)` and `sin(angle)`; both raise `ValueError` on an infinite angle. -/
def cosSin (angle : F) : Except Err (F × F) :=
  match Libm.cos angle with
  | none => .error .valueError
  | some c =>
    match Libm.sin angle with
    | none => .error .valueError
    | some s => .ok (c, s)

open FArith in
/-- `rotate.py:10-19` -/
def sketchRx (p : Vec3 F) (angle : F) : Except Err (Vec3 F) :=
  match cosSin angle with
  | .error e => .error e
  | .ok (c, s) => .ok ⟨p.x, sub (mul p.y c) (mul p.z s), add (mul p.y s) (mul p.z c)⟩

open FArith in
/-- `rotate.py:24-33` -/
def sketchRy (p : Vec3 F) (angle : F) : Except Err (Vec3 F) :=
  match cosSin angle with
  | .error e => .error e
  | .ok (c, s) => .ok ⟨add (mul p.x c) (mul p.z s), p.y, sub (mul p.z c) (mul p.x s)⟩

open FArith in
/-- `rotate.py:37-46`; the first to index the position -/
def sketchRz (position : List F) (angle : F) : Except Err (Vec3 F) :=
  match position with
  | x :: y :: z :: _ =>
    match cosSin angle with
    | .error e => .error e
    | .ok (c, s) => .ok ⟨sub (mul x c) (mul y s), add (mul x s) (mul y c), z⟩
  | _ => .error .indexError

/-- `rotate.py:49-57`: the point printed. -/
def sketchRotate (position rotation : List F) : Except Err (Vec3 F) :=
  match rotation with
  | yaw :: _pitch :: _roll :: _ =>
    let angle := Libm.radians yaw
    match sketchRz position angle with
    | .error e => .error e
    | .ok p =>
      match sketchRy p angle with
      | .error e => .error e
      | .ok p => sketchRx p angle
  | _ => .error .indexError

end

end Bf2
