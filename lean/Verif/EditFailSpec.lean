import Verif.EditSpec

/-! # Which vertices `rotate` can turn -/

namespace Bf2

/-- A vertex of `size` floats can be turned attribute by attribute: each position, normal and tangent has
three floats or more, three of them inside what is left of the vertex; turning one replaces all its
floats (`k`, or those up to the end of the vertex) by three. -/
inductive TurnFits (vertformat : Int) : Nat → List VAttr → Prop
  | nil {size : Nat} : TurnFits vertformat size []
  | other {size : Nat} {a : VAttr} {as : List VAttr} : ¬ VectorAttr a → TurnFits vertformat size as →
      TurnFits vertformat size (a :: as)
  | vector {size o k : Nat} {a : VAttr} {as : List VAttr} : VectorAttr a → StartsAt vertformat a o →
      typeFloats a.vartype = some k → 3 ≤ k → o + 3 ≤ size →
      TurnFits vertformat (size - min k (size - o) + 3) as → TurnFits vertformat size (a :: as)

/-- `math.cos` and `math.sin` do not raise on any of three angles. -/
def AnglesFine {F : Type} [Libm F] (y p r : F) : Prop :=
  ∀ a ∈ [y, p, r], (Libm.cos (Libm.radians a)).isSome ∧ (Libm.sin (Libm.radians a)).isSome

end Bf2
