import Verif.OldSample
import Verif.Float64

/-!
# Model of `/repo/deprecated/bf2.py`

Files are text: `read` gives the decoded text of a file, with line ends `\n`, or the exception.  A `for`
loop over the lines searches each line for itself; none of the patterns used in one matches across a line
end.  `isWord` says which characters `\w` matches.  `\d` and `int` are modelled for ASCII digits.
`get_wings` and `Jet` are in `OldWings`.
-/

namespace Bf2

/-- `bf2.py:11-14`, `os.sep` being the slash: `list.index` raises if there is no such part. -/
def findModRoot (cwd : Str) : Except Err Str :=
  let parts := cwd.splitOn '/'
  match parts.idxOf? "mods".toList with
  | none => .error .valueError
  | some i => .ok (['/'].intercalate (parts.take (i + 2)))

section
variable (isWord : Char → Bool)

/-- A literal in a pattern: what is left after it. -/
def lit (l s : Str) : Option Str := if s.take l.length = l then some (s.drop l.length) else none

/-- `.` in a pattern: the character and what is left. -/
def anyChar : Str → Option (Char × Str)
  | [] => none
  | c :: s => if c = '\n' then none else some (c, s)

/-- `bf2.py:39-47`; no comma separates the last two literals, which Python joins to one. -/
def objectTypes : List Str :=
  ["PlayerControlObject".toList, "Wing".toList, "Wheel".toList, "Spring".toList,
   "RotationalBundle".toList, "EngineSimpleObject".toList]

/-- `(T1|T2|...) (\w)+`: the first alternative that lets the rest match; `+` takes all it can. -/
def matchTyped : List Str → Str → Option Str
  | [], _ => none
  | t :: ts, s =>
    match lit (t ++ [' ']) s with
    | none => matchTyped ts s
    | some r =>
      match r.takeWhile isWord with
      | [] => matchTyped ts s
      | n => some (t ++ ' ' :: n)

/-- `re.match(r'ObjectTemplate.create (T1|T2|...) (\w)+', s)`: the matched text. -/
def matchCreate (s : Str) : Option Str :=
  match lit "ObjectTemplate".toList s with
  | none => none
  | some r =>
    match anyChar r with
    | none => none
    | some (c, r) =>
      match lit "create ".toList r with
      | none => none
      | some r =>
        match matchTyped isWord objectTypes r with
        | none => none
        | some m => some ("ObjectTemplate".toList ++ c :: ("create ".toList ++ m))

/-- `re.search`: the match at the first position that has one. -/
def search {α : Type} (m : Str → Option α) : Str → Option α
  | [] => m []
  | c :: s =>
    match m (c :: s) with
    | some x => some x
    | none => search m s

/-- The longest `\w` prefix, shortened until `.tweak` follows: `n` is the longest length to try. -/
def tweakAfter (s : Str) : Nat → Option Str
  | 0 => none
  | n + 1 =>
    match (anyChar (s.drop (n + 1))).bind fun p => (lit "tweak".toList p.2).map fun _ => p.1 with
    | some c => some (s.take (n + 1) ++ c :: "tweak".toList)
    | none => tweakAfter s n

/-- `re.match(r'include (\w)+.tweak', s)`: the matched text. -/
def matchInclude (s : Str) : Option Str :=
  match lit "include ".toList s with
  | none => none
  | some r => (tweakAfter r (r.takeWhile isWord).length).map ("include ".toList ++ ·)

/-- `x.split(' ')[i]` -/
def wordAt (x : Str) (i : Nat) : Except Err Str :=
  match (x.splitOn ' ')[i]? with
  | none => .error .indexError
  | some w => .ok w

/-- The loop of `get_root`, `bf2.py:57-63`. -/
def rootLoop : List Str → Except Err (Option (Str × Str))
  | [] => .ok none
  | l :: ls =>
    match search (matchCreate isWord) l with
    | none => rootLoop ls
    | some g =>
      match wordAt g 1 with
      | .error e => .error e
      | .ok ty =>
        match wordAt g 2 with
        | .error e => .error e
        | .ok name => .ok (some (ty, name))

/-- `TemplateParser(path).get_root()`, `bf2.py:53-63` -/
def getRoot (read : Str → Except Err Str) (path : Str) : Except Err (Option (Str × Str)) :=
  match read path with
  | .error e => .error e
  | .ok text => rootLoop isWord (text.splitOn '\n')

/-- The inner loop, `bf2.py:79-82`. -/
def tweakChildren (lines : List Str) : List Str := lines.filterMap (search (matchCreate isWord))

/-- The outer loop, `bf2.py:71-82`, with the children found so far. -/
def childLoop (read : Str → Except Err Str) (folder : Str) : List Str → List Str → Except Err (List Str)
  | [], acc => .ok acc
  | l :: ls, acc =>
    let acc := acc ++ (search (matchCreate isWord) l).toList
    match search (matchInclude isWord) l with
    | none => childLoop read folder ls acc
    | some g =>
      match wordAt g 1 with
      | .error e => .error e
      | .ok name =>
        match read (pathJoin folder name) with
        | .error e => .error e
        | .ok text => childLoop read folder ls (acc ++ tweakChildren isWord (text.splitOn '\n'))

/-- `TemplateParser(path).get_child_list()`, `bf2.py:65-83` -/
def getChildList (read : Str → Except Err Str) (path : Str) : Except Err (List Str) :=
  match read path with
  | .error e => .error e
  | .ok text => childLoop isWord read (dirname path) (text.splitOn '\n') []

/-- `GameObject(..).loadFromCon(path)`, `bf2.py:154-157`: the new `type`, `name` and `childs_created`.
Unpacking `None` raises. -/
def loadFromCon (read : Str → Except Err Str) (path : Str) : Except Err (Str × Str × List Str) :=
  match getRoot isWord read path with
  | .error e => .error e
  | .ok none => .error .typeError
  | .ok (some (ty, name)) =>
    match getChildList isWord read path with
    | .error e => .error e
    | .ok cs => .ok (ty, name, cs)

/-- `bf2.py:20`: the part of the name after the last dot. -/
def isTemplate (filename : Str) : Bool :=
  let e := (filename.splitOn '.').getLast?
  e = some "con".toList || e = some "tweak".toList

/-- The files of one directory, `bf2.py:19-25`. -/
def objectInDir (read : Str → Except Err Str) (dir name : Str) : List Str → Except Err (Option Str)
  | [] => .ok none
  | f :: fs =>
    if isTemplate f then
      match getRoot isWord read (pathJoin dir f) with
      | .error e => .error e
      | .ok (some (_, n)) =>
        if n = name then .ok (some (pathJoin dir f)) else objectInDir read dir name fs
      | .ok none => objectInDir read dir name fs
    else objectInDir read dir name fs

/-- `Mod.get_object_path(name)`, `bf2.py:16-25`.  `tree` is what `os.walk` yields, each directory with its
files.  The root is an absolute path, so are the directories, and `os.path.join` drops what is before
them. -/
def getObjectPath (read : Str → Except Err Str) (name : Str) :
    List (Str × List Str) → Except Err (Option Str)
  | [] => .ok none
  | (dir, files) :: ds =>
    match objectInDir isWord read dir name files with
    | .error e => .error e
    | .ok (some p) => .ok (some p)
    | .ok none => getObjectPath read name ds

end

/-! ## The material settings, `bf2.py:112-146` -/

/-- `\d+`: the digits, at least one, and what is left. -/
def digits (s : Str) : Option (Str × Str) :=
  match s.takeWhile Char.isDigit with
  | [] => none
  | d => some (d, s.dropWhile Char.isDigit)

/-- `int(s)` -/
def decNat (s : Str) : Nat := s.foldl (fun n c => 10 * n + (c.toNat - 48)) 0

/-- `((\d+\.\d+)|(\d+))` and `float` of it: the number and what is left. -/
def matchNumber (s : Str) : Option (F64 × Str) :=
  match digits s with
  | none => none
  | some (a, r) =>
    match (lit ".".toList r).bind digits with
    | some (b, r') => some (F64.ofRat false (decNat (a ++ b) / (10 ^ b.length : Nat)), r')
    | none => some (F64.ofRat false (decNat a), r)

/-- One match: attacker, target, damage, and what is left. -/
def matchCell (s : Str) : Option (Nat × Nat × F64 × Str) := do
  let r ← lit "MaterialManager".toList s
  let (_, r) ← anyChar r
  let r ← lit "createCell ".toList r
  let (a, r) ← digits r
  let r ← lit " ".toList r
  let (t, r) ← digits r
  let r ← lit "\nMaterialManager".toList r
  let (_, r) ← anyChar r
  let r ← lit "damageMod ".toList r
  let (d, r) ← matchNumber r
  pure (decNat a, decNat t, d, r)

/-- `re.finditer`: the matches from left to right, none overlapping the one before.  `fuel` bounds the
recursion; `cellsOf` below gives it the length of the text. -/
def findCells : Nat → Str → List (Nat × Nat × F64)
  | 0, _ => []
  | fuel + 1, s =>
    match s with
    | [] => []
    | c :: cs =>
      match matchCell (c :: cs) with
      | some (a, t, d, r) => (a, t, d) :: findCells fuel r
      | none => findCells fuel cs

def cellsOf (s : Str) : List (Nat × Nat × F64) := findCells s.length s

/-- A Python dictionary with its entries in the order of insertion. -/
abbrev Dict (α : Type) := List (Nat × α)

/-- The loop of `parse_settings`, `bf2.py:135-145`: the materials by id, each with its `damage_mod`. -/
def addCell (cells : Dict (Dict F64)) (c : Nat × Nat × F64) : Dict (Dict F64) :=
  let cells := if (cells.lookup c.1).isSome then cells else cells ++ [(c.1, [])]
  cells.map fun e =>
    if e.1 = c.1 ∧ (e.2.lookup c.2.1).isNone then (e.1, e.2 ++ [(c.2.1, c.2.2)]) else e

/-- `Materials.parse_settings` of a file with this text. -/
def parseSettings (text : Str) : Dict (Dict F64) := (cellsOf text).foldl addCell []

end Bf2
