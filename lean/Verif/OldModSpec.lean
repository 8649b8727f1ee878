import Verif.ObjectSpec
import Verif.Float64
import Mathlib.Data.Nat.Digits.Defs
import Mathlib.Data.Rat.Defs

/-!
# What `/repo/deprecated/bf2.py` looks for

`w` says which characters are word characters.
-/

namespace Bf2

/-- The types of objects it finds. -/
def FoundType (ty : Str) : Prop :=
  ty = "PlayerControlObject".toList ∨ ty = "Wing".toList ∨ ty = "Wheel".toList ∨
  ty = "Spring".toList ∨ ty = "RotationalBundle".toList ∨ ty = "EngineSimpleObject".toList

/-- `s` begins with `ObjectTemplate?create TYPE NAME`, where `?` is the character `c` and the name ends
where the word does. -/
def Creates (w : Char → Bool) (s : Str) (c : Char) (ty name : Str) : Prop :=
  ∃ post, s = "ObjectTemplate".toList ++ c :: ("create ".toList ++ (ty ++ ' ' :: (name ++ post))) ∧
    c ≠ '\n' ∧ FoundType ty ∧ name ≠ [] ∧ (∀ x ∈ name, w x = true) ∧
    ∀ x, post.head? = some x → w x = false

/-- The first such text in a line. -/
def FirstCreate (w : Char → Bool) (line : Str) (c : Char) (ty name : Str) : Prop :=
  ∃ pre s, line = pre ++ s ∧ Creates w s c ty name ∧
    ∀ pre' s', line = pre' ++ s' → pre'.length < pre.length → ∀ c' t n, ¬ Creates w s' c' t n

/-- There is none. -/
def NoCreate (w : Char → Bool) (line : Str) : Prop :=
  ∀ pre s, line = pre ++ s → ∀ c t n, ¬ Creates w s c t n

/-- `s` begins with `include STEM?tweak`, where `?` is the character `c`. -/
def TweakAt (w : Char → Bool) (s stem : Str) (c : Char) : Prop :=
  (∃ post, s = "include ".toList ++ (stem ++ c :: ("tweak".toList ++ post))) ∧ c ≠ '\n' ∧ stem ≠ [] ∧
    ∀ x ∈ stem, w x = true

/-- Of these, the one with the longest stem. -/
def Includes (w : Char → Bool) (s stem : Str) (c : Char) : Prop :=
  TweakAt w s stem c ∧ ∀ stem' c', TweakAt w s stem' c' → stem'.length ≤ stem.length

/-- The first such text in a line. -/
def FirstInclude (w : Char → Bool) (line stem : Str) (c : Char) : Prop :=
  ∃ pre s, line = pre ++ s ∧ Includes w s stem c ∧
    ∀ pre' s', line = pre' ++ s' → pre'.length < pre.length → ∀ x d, ¬ TweakAt w s' x d

/-- There is none. -/
def NoInclude (w : Char → Bool) (line : Str) : Prop :=
  ∀ pre s, line = pre ++ s → ∀ x d, ¬ TweakAt w s x d

/-- A file name whose last part, between dots, is `con` or `tweak`. -/
def TemplateName (f : Str) : Prop :=
  ∃ e, (e = "con".toList ∨ e = "tweak".toList) ∧ (f = e ∨ ∃ a, f = a ++ '.' :: e)

/-- A digit string. -/
def Digits (s : Str) : Prop := s ≠ [] ∧ ∀ c ∈ s, '0' ≤ c ∧ c ≤ '9'

/-- The number it stands for. -/
def digitsValue (s : Str) : Nat := Nat.ofDigits 10 (s.reverse.map fun c => c.toNat - '0'.toNat)

/-- A numeral `a` or `a.b`, and the number it stands for. -/
inductive Numeral : Str → ℚ → Prop
  | whole {a : Str} (ha : Digits a) : Numeral a (digitsValue a)
  | frac {a b : Str} (ha : Digits a) (hb : Digits b) :
      Numeral (a ++ '.' :: b) (digitsValue a + digitsValue b / 10 ^ b.length)

/-- A cell of the settings: the damage one material does to another. -/
structure Cell where
  attacker : Str
  target : Str
  damage : Str

/-- The two ids and the damage of a cell, the damage rounded to a double. -/
structure Cell.Reads (c : Cell) (v : Nat × Nat × F64) : Prop where
  attacker : Digits c.attacker ∧ v.1 = digitsValue c.attacker
  target : Digits c.target ∧ v.2.1 = digitsValue c.target
  damage : ∃ q, Numeral c.damage q ∧ v.2.2 = F64.ofRat false q

/-- The two lines of a cell. -/
def Cell.lines (c : Cell) : Str :=
  "MaterialManager.createCell ".toList ++ (c.attacker ++ ' ' :: (c.target ++
    ('\n' :: ("MaterialManager.damageMod ".toList ++ (c.damage ++ ['\n'])))))

/-- Lines that do not mention cells. -/
def OtherLines (s : Str) : Prop := (s = [] ∨ s.getLast? = some '\n') ∧ ¬ "createCell".toList <:+: s

/-- The text of a settings file: cells with other lines before each and at the end. -/
def settingsText (cells : List (Str × Cell)) (rest : Str) : Str :=
  cells.flatMap (fun p => p.1 ++ p.2.lines) ++ rest

end Bf2
