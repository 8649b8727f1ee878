import Verif.OldTransformSpec

/-!
# What the functions of the scripts in `/repo/deprecated` should do
-/

namespace Bf2

variable {F : Type}

/-- A material moved behind the arrays of `m`. -/
def behind (m : OldMesh F) (a : Mat F) : Mat F :=
  { a with vstart := a.vstart + m.vertnum, istart := a.istart + m.indexnum }

/-- A vertex without the `n` floats from position `o` on. -/
def without (o n : Nat) (w : List F) : List F := w.take o ++ w.drop (o + n)

/-- A `Vertex` object without the attribute with usage `u`. -/
def VObj.drop (v : VObj F) (u : Int) : VObj F := fun u' => if u' = u then none else v u'

/-- The same attribute, perhaps at another offset. -/
def SameAttr (a a' : VAttr) : Prop := a' = { a with offset := a'.offset }

end Bf2
