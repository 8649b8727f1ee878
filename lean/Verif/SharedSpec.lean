import Verif.Shared
import Verif.EditSpec

/-! # Words for the claims about shared geom objects (C134) -/

namespace Bf2

variable {F : Type}

/-- No geom object is in two places. -/
def Shared.Unshared (s : Shared F) : Prop :=
  ∀ (i k j : Nat), s.slots[i]? = some j → s.slots[k]? = some j → i = k

/-- The order names no geom twice (it may name geoms that do not exist). -/
def NamesOnce (n : Nat) (order : List Int) : Prop :=
  ∀ (i k j : Nat) (a b : Int), order[i]? = some a → order[k]? = some b → Names n a j → Names n b j →
    i = k

/-- Orders among the calls name no geom twice. -/
def EditCall.once (n : Nat) : EditCall F → Prop
  | .reorder order => NamesOnce n order
  | _ => True

/-- Calls that only move vertices or update bounds. -/
def EditCall.gentle : EditCall F → Prop
  | .translate _ | .rotate _ | .update | .center _ _ _ => True
  | _ => False

end Bf2
