import Verif.OldModSpec

/-!
# What `get_wings` of `/repo/deprecated/bf2.py` looks for
-/

namespace Bf2

/-- `s` begins with `num`, and no digit follows. -/
def EndsDigits (s num : Str) : Prop := ∃ post, s = num ++ post ∧ ∀ x, post.head? = some x → ¬ ('0' ≤ x ∧ x ≤ '9')

/-- `s` begins with the number `num` that has a decimal point with digits after it and maybe before it,
and maybe a sign. -/
def DecimalAt (s num : Str) : Prop :=
  EndsDigits s num ∧ ∃ sign a b, num = sign ++ (a ++ '.' :: b) ∧ sign ∈ [[], ['-'], ['+']] ∧
    (a = [] ∨ Digits a) ∧ Digits b

/-- `s` begins with the number `num`: one with a decimal point if possible, otherwise digits without a
sign. -/
def LiftAt (s num : Str) : Prop :=
  DecimalAt s num ∨ (∀ n, ¬ DecimalAt s n) ∧ Digits num ∧ EndsDigits s num

/-- `s` begins with the command `g`, which creates or names a wing or sets a lift. -/
inductive WingAt (w : Char → Bool) : Str → Str → Prop
  | wing {c : Char} {verb name post : Str} (hc : c ≠ '\n')
      (hv : verb = "create".toList ∨ verb = "activeSafe".toList) (hn : name ≠ [])
      (hw : ∀ x ∈ name, w x = true) (hp : ∀ x, post.head? = some x → w x = false) :
      WingAt w ("ObjectTemplate".toList ++ c :: (verb ++ (" Wing ".toList ++ (name ++ post))))
        ("ObjectTemplate".toList ++ c :: (verb ++ (" Wing ".toList ++ name)))
  | lift {c : Char} {what num s : Str} (hc : c ≠ '\n')
      (hv : what = "setWingLift ".toList ∨ what = "setFlapLift ".toList) (hn : LiftAt s num) :
      WingAt w ("ObjectTemplate".toList ++ c :: (what ++ s))
        ("ObjectTemplate".toList ++ c :: (what ++ num))

/-- The first such command in a line. -/
def FirstWing (w : Char → Bool) (line g : Str) : Prop :=
  ∃ pre s, line = pre ++ s ∧ WingAt w s g ∧
    ∀ pre' s', line = pre' ++ s' → pre'.length < pre.length → ∀ g', ¬ WingAt w s' g'

/-- There is none. -/
def NoWing (w : Char → Bool) (line : Str) : Prop := ∀ pre s, line = pre ++ s → ∀ g, ¬ WingAt w s g

/-- What a line of an included file contributes. -/
def LineWing (w : Char → Bool) (line : Str) (p : List Str) : Prop :=
  (NoWing w line ∧ p = []) ∨ ∃ g, FirstWing w line g ∧ p = [g]

end Bf2
