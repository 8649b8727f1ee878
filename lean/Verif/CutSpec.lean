import Verif.Py

/-! # A save that stops, apart from the model -/

namespace Bf2

/-- What a save may have put in its file when it stopped: the first bytes of what it writes, all of them only if
the save raised. -/
def Stopped (w : Out) (part : Bytes) : Prop := part <+: w.bytes ∧ (part = w.bytes → w.err ≠ none)

end Bf2
