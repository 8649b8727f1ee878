import Verif.QuarterSpec
import Verif.DriftSpec

/-! # Quarter turns one after the other -/

namespace Bf2

/-- The three angles of `rotate`. -/
inductive Axis where
  | yaw
  | pitch
  | roll

/-- A call of `rotate` that is meant as a quarter turn about one axis, forwards (`σ = 1`) or backwards (`σ = -1`). -/
structure Spin where
  axis : Axis
  σ : ℚ
  yaw : F64
  pitch : F64
  roll : F64

/-- The C library gives that angle as a quarter turn and the two others as none. -/
def Spin.Fine [Libm F64] (t : Spin) : Prop :=
  match t.axis with
  | .yaw => QuarterTurn t.σ t.yaw ∧ NoTurn t.pitch ∧ NoTurn t.roll
  | .pitch => NoTurn t.yaw ∧ QuarterTurn t.σ t.pitch ∧ NoTurn t.roll
  | .roll => NoTurn t.yaw ∧ NoTurn t.pitch ∧ QuarterTurn t.σ t.roll

/-- The call, then saving and loading. -/
def Spin.acts (t : Spin) : List Act := [.turn t.yaw t.pitch t.roll, .store]

/-- What a quarter turn does to a vector. -/
def spin (a : Axis) (σ : ℚ) (v : Vec3 ℚ) : Vec3 ℚ :=
  match a with
  | .yaw => ⟨σ * v.z, v.y, -σ * v.x⟩
  | .pitch => ⟨v.x, -σ * v.z, σ * v.y⟩
  | .roll => ⟨-σ * v.y, σ * v.x, v.z⟩

/-- What a list of them does. -/
def spinAll (ts : List Spin) (v : Vec3 ℚ) : Vec3 ℚ := ts.foldl (fun v t => spin t.axis t.σ v) v

/-- The numbers that doubles stand for. -/
def Vec3.values (x : Vec3 F64) : Vec3 ℚ := x.map F64.value

/-- No coordinate is a million times smaller than another. -/
def Level (v : Vec3 ℚ) : Prop := ∀ c ∈ [v.x, v.y, v.z], ∀ d ∈ [v.x, v.y, v.z], |c| ≤ 2 ^ 20 * |d|

end Bf2
