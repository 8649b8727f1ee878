import Verif.ObjectSpec
import Verif.Windows

/-! # Windows paths, apart from the model -/

namespace Bf2

def toSlash (c : Char) : Char := if c = '\\' then '/' else c

/-- The path with slashes for its backslashes. -/
def slashed (p : Str) : Str := p.map toSlash

/-- The extensions of the kinds of meshes. -/
def meshExts : List Str :=
  [".skinnedmesh".toList, ".bundledmesh".toList, ".staticmesh".toList, ".collisionmesh".toList]

/-- A backslash, then dots, then the extension of a kind of mesh, up to case: the last component on Windows is
nothing but dots and the extension. -/
def HiddenExt (p : Str) : Prop :=
  ∃ (d : Str) (n : Nat) (e : Str), p = d ++ '\\' :: (List.replicate n '.' ++ e) ∧ ∃ t ∈ meshExts, SameName e t

/-- No kind: loaded with the layout of a static mesh (C15). -/
def noKind : Kind := ⟨false, false, false, false⟩

end Bf2
