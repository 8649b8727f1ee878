import Verif.OldMod

/-!
# Model of `TemplateParser.get_wings` and `Jet` of `/repo/deprecated/bf2.py`

As in `OldMod`, `read` gives the text of a file and `isWord` says what `\w` matches.  What is printed is a
list of lines; printing itself does not fail.
-/

namespace Bf2

section
variable (isWord : Char → Bool)

/-- `[-+]?`: the sign and what is left. -/
def liftSign : Str → Str × Str
  | [] => ([], [])
  | c :: r => if c = '-' ∨ c = '+' then ([c], r) else ([], c :: r)

/-- `[-+]?\d*\.\d+|\d+`: the matched text.  Giving back digits or the sign does not help: the next
character must be a dot. -/
def matchLift (s : Str) : Option Str :=
  let (sign, r) := liftSign s
  match (lit ".".toList (r.dropWhile Char.isDigit)).bind digits with
  | some (b, _) => some (sign ++ (r.takeWhile Char.isDigit ++ '.' :: b))
  | none => (digits s).map Prod.fst

/-- A literal and `(\w)+`. -/
def matchNamed (l s : Str) : Option Str :=
  match lit l s with
  | none => none
  | some r =>
    match r.takeWhile isWord with
    | [] => none
    | n => some (l ++ n)

/-- A literal and a number. -/
def matchSet (l s : Str) : Option Str :=
  match lit l s with
  | none => none
  | some r => (matchLift r).map (l ++ ·)

/-- `pattern3`, `bf2.py:87`, after `ObjectTemplate.`, with which all its alternatives begin. -/
def wingTail (s : Str) : Option Str :=
  match matchNamed isWord "create Wing ".toList s with
  | some g => some g
  | none =>
    match matchNamed isWord "activeSafe Wing ".toList s with
    | some g => some g
    | none =>
      match matchSet "setWingLift ".toList s with
      | some g => some g
      | none => matchSet "setFlapLift ".toList s

/-- `re.match(pattern3, s)`: the matched text. -/
def matchWing (s : Str) : Option Str :=
  match lit "ObjectTemplate".toList s with
  | none => none
  | some r =>
    match anyChar r with
    | none => none
    | some (c, r) => (wingTail isWord r).map fun g => "ObjectTemplate".toList ++ c :: g

/-- The lines printed for one included file, `bf2.py:103-106`. -/
def tweakWings (lines : List Str) : List Str := lines.filterMap (search (matchWing isWord))

/-- The outer loop, `bf2.py:89-106`: the lines printed, and the exception if there is one. -/
def wingLoop (read : Str → Except Err Str) (folder : Str) : List Str → List Str × Option Err
  | [] => ([], none)
  | l :: ls =>
    match search (matchInclude isWord) l with
    | none => wingLoop read folder ls
    | some g =>
      match wordAt g 1 with
      | .error e => ([], some e)
      | .ok name =>
        match read (pathJoin folder name) with
        | .error e => ([], some e)
        | .ok text =>
          let (out, e) := wingLoop read folder ls
          (tweakWings isWord (text.splitOn '\n') ++ out, e)

/-- `TemplateParser(path).get_wings()`, `bf2.py:83-106`, which returns `None`: the lines printed, and the
exception if there is one. -/
def getWings (read : Str → Except Err Str) (path : Str) : List Str × Option Err :=
  match read path with
  | .error e => ([], some e)
  | .ok text => wingLoop isWord read (dirname path) (text.splitOn '\n')

/-- `bf2.py:164-169`; `wings` is `none` if it is Python's `None`. -/
structure Jet where
  name : Option Str
  type : Option Str
  wings : Option (List Str)

/-- `Jet()`, `bf2.py:166-169` -/
def newJet : Jet := ⟨none, none, some []⟩

/-- `jet.loadFromCon(path)`, `bf2.py:171-174`: the jet afterwards, the lines printed, and the exception if
there is one.  Unpacking `None` raises. -/
def loadJet (read : Str → Except Err Str) (path : Str) (j : Jet) : Jet × List Str × Option Err :=
  match getRoot isWord read path with
  | .error e => (j, [], some e)
  | .ok none => (j, [], some .typeError)
  | .ok (some (ty, name)) =>
    let j := { j with type := some ty, name := some name }
    match getWings isWord read path with
    | (out, some e) => (j, out, some e)
    | (out, none) => ({ j with wings := none }, out, none)

end

end Bf2
