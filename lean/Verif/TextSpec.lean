import Verif.Object

/-!
# What a reader finds in the texts of headers and attributes
-/

namespace Bf2

/-- The number a row of digits stands for. -/
def decimalValue (s : Str) : Nat := s.foldl (fun n c => 10 * n + (c.toNat - '0'.toNat)) 0

/-- `s` is the usual way to write the int `n`: digits, no superfluous zero in front, `-` for negative
numbers. -/
def WritesInt (s : Str) (n : Int) : Prop :=
  ∃ ds : Str, ds ≠ [] ∧ (∀ c ∈ ds, c.isDigit) ∧ (ds.head? = some '0' → ds = ['0']) ∧
    ((s = ds ∧ n = decimalValue ds) ∨ (s = '-' :: ds ∧ n = -decimalValue ds ∧ n ≠ 0))

/-- Names of the vertex types. -/
def typeNames : List (Int × String) :=
  [(0, "FLOAT1"), (1, "FLOAT2"), (2, "FLOAT3"), (3, "FLOAT4"), (4, "D3DCOLOR"), (17, "UNUSED")]

/-- Names of the usages. -/
def usageNames : List (Int × String) :=
  [(0, "POSITION"), (1, "BLENDWEIGHT"), (2, "BLENDINDICES"), (3, "NORMAL"), (4, "PSIZE"), (5, "UV1"),
   (6, "TANGENT"), (7, "BINORMAL"), (8, "TESSFACTOR"), (9, "POSITIONT"), (10, "COLOR"), (11, "FOG"),
   (12, "DEPTH"), (13, "SAMPLE"), (261, "UV2"), (517, "UV3"), (773, "UV4"), (1029, "UV5")]

/-- `s` is the usual notation of a tuple of four ints. -/
def WritesFour (s : Str) (a b c d : Int) : Prop :=
  ∃ inner s1 s2 s3 s4 : Str, s = '(' :: (inner ++ [')']) ∧
    inner.splitOn ',' = [s1, ' ' :: s2, ' ' :: s3, ' ' :: s4] ∧
    WritesInt s1 a ∧ WritesInt s2 b ∧ WritesInt s3 c ∧ WritesInt s4 d

end Bf2
