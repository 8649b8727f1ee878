import Verif.SpinSpec

/-! # A half turn -/

namespace Bf2

/-- An angle in degrees whose cosine the C library gives as exactly minus one and whose sine as something no
larger than `2^-50`. The sine of the double nearest to `π` is about `1.2e-16` and not zero. -/
def HalfTurn [Libm F64] (a : F64) : Prop :=
  ∃ c s : F64, Libm.cos (Libm.radians a) = some c ∧ Libm.sin (Libm.radians a) = some s ∧
    c.isFin = true ∧ s.isFin = true ∧ c.value = -1 ∧ |s.value| ≤ 2 ^ (-50 : ℤ)

/-- The three angles of a call of `rotate` that is meant as half a turn about one axis. -/
def Axis.Half [Libm F64] (a : Axis) (yaw pitch roll : F64) : Prop :=
  match a with
  | .yaw => HalfTurn yaw ∧ NoTurn pitch ∧ NoTurn roll
  | .pitch => NoTurn yaw ∧ HalfTurn pitch ∧ NoTurn roll
  | .roll => NoTurn yaw ∧ NoTurn pitch ∧ HalfTurn roll

/-- What half a turn does to a vector. -/
def halfSpin (a : Axis) (v : Vec3 ℚ) : Vec3 ℚ :=
  match a with
  | .yaw => ⟨-v.x, v.y, -v.z⟩
  | .pitch => ⟨v.x, -v.y, -v.z⟩
  | .roll => ⟨-v.x, -v.y, v.z⟩

end Bf2
