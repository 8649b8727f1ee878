import Verif.Nums
import Verif.FloatSpec

/-! # What integer offsets and angles should do -/

namespace Bf2

/-- `d` is the double that stands for the number `n`: `n` itself, or the integer correctly rounded. -/
def StandsFor (n : Num) (d : F64) : Prop :=
  match n with
  | .float x => d = x
  | .int i => d.isFin = true ∧ Rounded i d ∧ (i = 0 → d.neg = false)

/-- Too large to be a double. -/
def TooLarge (n : Num) : Prop :=
  ∃ i : Int, n = .int i ∧ (2 ^ 1024 - 2 ^ 970 : Int) ≤ |i|

/-- Some integer has more than `limit` digits. -/
def TooLong (limit : Option Nat) (l : List Num) : Prop :=
  ∃ n i, limit = some n ∧ Num.int i ∈ l ∧ (10 ^ n : Int) ≤ |i|

end Bf2
