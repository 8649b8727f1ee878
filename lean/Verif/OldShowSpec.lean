import Verif.TextSpec

/-!
# Reading bytes as Python writes them
-/

namespace Bf2

/-- The value of a hexadecimal digit. -/
def hexValue (c : Char) : Option Nat :=
  if '0' ≤ c ∧ c ≤ '9' then some (c.toNat - '0'.toNat)
  else if 'a' ≤ c ∧ c ≤ 'f' then some (c.toNat - 'a'.toNat + 10)
  else none

/-- The byte a character after a backslash stands for. -/
def escapeValue (c : Char) : Option UInt8 :=
  if c = 't' then some 9 else if c = 'n' then some 10 else if c = 'r' then some 13
  else if c = '\\' ∨ c = '\'' ∨ c = '"' then some (UInt8.ofNat c.toNat) else none

/-- The bytes between quotes `q` of a Python bytes literal. -/
def readBody (q : Char) : Str → Option Bytes
  | [] => some []
  | c :: s =>
    if c = '\\' then
      match s with
      | [] => none
      | d :: t =>
        if d = 'x' then
          match t with
          | a :: b :: r =>
            match hexValue a, hexValue b, readBody q r with
            | some x, some y, some l => some (UInt8.ofNat (16 * x + y) :: l)
            | _, _, _ => none
          | _ => none
        else
          match escapeValue d, readBody q t with
          | some x, some l => some (x :: l)
          | _, _ => none
    else if c = q ∨ c.toNat < 32 ∨ 127 ≤ c.toNat then none
    else
      match readBody q s with
      | some l => some (UInt8.ofNat c.toNat :: l)
      | none => none

/-- `s` is a Python bytes literal for `b`. -/
def WritesBytes (s : Str) (b : Bytes) : Prop :=
  ∃ q ∈ ['\'', '"'], ∃ body, s = 'b' :: q :: (body ++ [q]) ∧ readBody q body = some b

/-- `s` is the text of an int or `None`. -/
def WritesOpt (s : Str) (n : Option Int) : Prop :=
  (n = none ∧ s = "None".toList) ∨ ∃ k, n = some k ∧ WritesInt s k

/-- The lines of the maps, numbered from `i`. -/
def WritesMaps : Nat → List Str → List Bytes → Prop
  | _, [], [] => True
  | i, s :: ss, b :: bs =>
    (∃ k v, s = "map[".toList ++ k ++ "] = ".toList ++ v ∧ WritesInt k i ∧ WritesBytes v b) ∧
      WritesMaps (i + 1) ss bs
  | _, _, _ => False

end Bf2
