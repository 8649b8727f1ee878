import Verif.Edit
import Verif.Spec
import Verif.EditSpec

/-! # Turning by nothing -/

namespace Bf2

/-- The double `-0.0`. -/
def minusZero : F64 := ⟨true, 0, by norm_num⟩

/-- The double `+0.0`. -/
def plusZero : F64 := ⟨false, 0, by norm_num⟩

/-- An angle in degrees whose cosine the C library gives as one and whose sine as a zero, as it does
for zero degrees. -/
def NoTurn [Libm F64] (a : F64) : Prop :=
  (∃ c, Libm.cos (Libm.radians a) = some c ∧ c.isFin = true ∧ c.value = 1) ∧
  Libm.sin (Libm.radians a) ∈ [some plusZero, some minusZero]

/-- Number `i` of the vertex array belongs to a position, normal or tangent. -/
def InVector {F : Type} (vs : Nat) (m : Mesh F) (i : Nat) : Prop :=
  ∃ a ∈ m.vattrs, VectorAttr a ∧ ∃ o, StartsAt m.vertformat a o ∧ o ≤ i % vs ∧ i % vs < o + 3

/-- The same double, except that a negative zero may have become a positive one. -/
def KeptZero (x x' : F64) : Prop := x' = x ∨ x = minusZero ∧ x' = plusZero

end Bf2
