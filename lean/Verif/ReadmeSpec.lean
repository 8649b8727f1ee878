import Verif.ObjectSpec
import Verif.HistorySpec

/-!
# What the programs of the README should do
-/

namespace Bf2

/-- `path` has a slash and names the place `loc`, in a directory that exists; there may be a file but
no directory. -/
structure Target (fs : FS) (path : Str) (loc : Loc) : Prop where
  slash : '/' ∈ path
  place : fs.resolve path = .ok loc
  free : fs.node loc ≠ some .dir

/-- The only difference between the file systems is what file is at `loc`. -/
structure OneFile (fs fs' : FS) (loc : Loc) : Prop where
  file : ∃ content, fs'.node loc = some (.file content)
  others : ∀ q, q ≠ loc → fs'.node q = fs.node q
  cwd : fs'.cwd = fs.cwd

/-- A mesh as the programs need it: in good order, with a position of three or four floats at float
`p` of a vertex, and attributes of known types and usages. -/
structure Usable (vs p : Nat) (m : Mesh F) : Prop where
  orderly : Orderly vs m
  position : ∃ a, FirstPosition m.vattrs a ∧ PositionAt vs p m a
  known : AttrsKnown m

/-- The bounds of `m` hold all positions, if it is a mesh with bounds. -/
def BoundsHold [FArith F] (vs p : Nat) (m : Mesh F) : Prop := Bounded m → BoundsAre Covers vs p m m

end Bf2
