import Verif.Object

/-!
# Paths on the network
-/

namespace Bf2

/-- A separator of Windows. -/
def WinSep (c : Char) : Prop := c = '\\' ∨ c = '/'

/-- What stands before the name of a server: two separators, or `\\?\UNC\` in letters of either case. -/
inductive NetStart : Str → Prop
  | short {s t : Char} : WinSep s → WinSep t → NetStart [s, t]
  | long {s t u v a b c : Char} : WinSep s → WinSep t → WinSep u → WinSep v →
      (a = 'u' ∨ a = 'U') → (b = 'n' ∨ b = 'N') → (c = 'c' ∨ c = 'C') → NetStart [s, t, '?', u, a, b, c, v]

end Bf2
