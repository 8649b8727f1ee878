import Verif.Object

/-! # Specification vocabulary for file names and exports -/

namespace Bf2

/-- `e` is the extension of the path `p`: a dot and what follows it, in the last component, after a
name that does not consist of dots only. -/
def ExtOf (p e : Str) : Prop :=
  ∃ dir base s, p = dir ++ base ++ e ∧ e = '.' :: s ∧ (dir = [] ∨ ∃ d, dir = d ++ ['/']) ∧
    '/' ∉ base ∧ '/' ∉ s ∧ '.' ∉ s ∧ ∃ c ∈ base, c ≠ '.'

/-- `c` is the lower case character `t`, the corresponding upper case letter, or (for `k`) the
Kelvin sign. -/
def CaseOf (c t : Char) : Prop :=
  c = t ∨ ('a' ≤ t ∧ t ≤ 'z' ∧ c.toNat + 32 = t.toNat) ∨ (t = 'k' ∧ c.toNat = 0x212A)

/-- `e` is the lower case string `t` up to case. -/
def SameName (e t : Str) : Prop := List.Forall₂ CaseOf e t

/-- The only difference between two file systems are directories that did not exist in the first. -/
def Grown (fs fs' : FS) : Prop :=
  fs'.cwd = fs.cwd ∧ ∀ q, fs'.node q = fs.node q ∨ (fs.node q = none ∧ fs'.node q = some .dir)

/-- The file at `loc`, which is the one `name` names, holds `content` now; everything else is as it
was, up to new directories. -/
structure Written (fs fs' : FS) (name : Str) (loc : Loc) (content : Bytes) : Prop where
  names : fs'.resolve name = .ok loc
  content : fs'.node loc = some (.file content)
  no_dir : fs.node loc ≠ some .dir
  cwd : fs'.cwd = fs.cwd
  others : ∀ q, q ≠ loc → fs'.node q = fs.node q ∨ (fs.node q = none ∧ fs'.node q = some .dir)

/-- A name that can be created: not empty, not `.` or `..`, without slash. -/
def PlainName (c : Str) : Prop := c ≠ [] ∧ c ≠ ['.'] ∧ c ≠ ['.', '.'] ∧ '/' ∉ c

/-- The relative path of these names. -/
def joined (cs : List Str) : Str := ['/'].intercalate cs

/-- Along `cs` from the current directory there are only directories and missing places. -/
def FreeWay (fs : FS) (cs : List Str) : Prop :=
  fs.node fs.cwd = some .dir ∧
  ∃ k, k ≤ cs.length ∧ (∀ i, i ≤ k → fs.node (fs.cwd ++ cs.take i) = some .dir) ∧
    ∀ i, k < i → i ≤ cs.length → fs.node (fs.cwd ++ cs.take i) = none

end Bf2
