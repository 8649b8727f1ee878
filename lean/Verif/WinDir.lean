import Verif.Windows

/-!
# The directory of a path on Windows

`visiblemesh.py:206-208` makes the directory of the path exported to.  On Windows `os.path.dirname` is
`ntpath.dirname`; here it is as in Python 3.12.
-/

namespace Bf2

/-- `c in '\\/'` -/
def ntIsSep (c : Char) : Bool := c == '\\' || c == '/'

/-- `p.replace(altsep, sep)` -/
def ntNorm (p : Str) : Str := p.map fun c => if c = '/' then '\\' else c

/-- `normp.find(sep, start)` -/
def ntFind (normp : Str) (start : Nat) : Option Nat := ((normp.drop start).findIdx? (· == '\\')).map (start + ·)

/-- `s.upper()`, for letters of ASCII: no other letter becomes one of `UNC` alone. -/
def ntUpper (s : Str) : Str := s.map fun c => if 'a' ≤ c ∧ c ≤ 'z' then Char.ofNat (c.toNat - 32) else c

/-- `ntpath.splitroot(p)`: drive, root and the rest. -/
def ntSplitroot (p : Str) : Str × Str × Str :=
  let normp := ntNorm p
  if normp.take 1 = ['\\'] then
    if (normp.drop 1).take 1 = ['\\'] then
      let start := if ntUpper (normp.take 8) = "\\\\?\\UNC\\".toList then 8 else 2
      match ntFind normp start with
      | none => (p, [], [])
      | some index =>
        match ntFind normp (index + 1) with
        | none => (p, [], [])
        | some index2 => (p.take index2, (p.drop index2).take 1, p.drop (index2 + 1))
    else ([], p.take 1, p.drop 1)
  else if (normp.drop 1).take 1 = [':'] then
    if (normp.drop 2).take 1 = ['\\'] then (p.take 2, (p.drop 2).take 1, p.drop 3)
    else (p.take 2, [], p.drop 2)
  else ([], [], p)

/-- `s.rstrip('\\/')` -/
def ntRstrip (s : Str) : Str := (s.reverse.dropWhile ntIsSep).reverse

/-- The loop of `ntpath.split`: everything after the last separator is taken off. -/
def ntHead (s : Str) : Str := (s.reverse.dropWhile fun c => !ntIsSep c).reverse

/-- `ntpath.dirname(p)`: `ntpath.split(p)[0]` -/
def ntDirname (p : Str) : Str :=
  match ntSplitroot p with
  | (d, r, rest) => d ++ r ++ ntRstrip (ntHead rest)

/-- `visiblemesh.py:206-208` on Windows, with the system calls as parameters: does it raise? -/
def ntEnsureDir (exist : Str → Bool) (makedirs : Str → Option Err) (filename : Str) : Option Err :=
  let dir := ntDirname filename
  if exist dir then none else makedirs dir

end Bf2
