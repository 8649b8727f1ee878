import Verif.OldMesh

/-!
# `LoadBF2Mesh(filepath, loadSamples=True)` and `LoadBF2Sample`, `/repo/deprecated/modmesh.py:100-144`

The class `StdSample` used there is defined nowhere, so no sample is ever read or attached.  The classes
`smp_sample` and `smp_face`, which nothing uses, are in `OldSmp`.
-/

namespace Bf2

/-- `os.path.join(a, b)` for `b` a name without slash. -/
def pathJoin (a b : Str) : Str :=
  if a = [] ∨ a.getLast? = some '/' then a ++ b else a ++ '/' :: b

/-- `LoadBF2Sample(filepath)`, lines 141-145: opening may raise, then the name `StdSample` does. -/
def loadSample (fs : FS) (path : Str) : Err :=
  match fs.read path with
  | .error e => e
  | .ok _ => .nameError

/-- `int(c)` for one character: the exception, if any.  Python accepts any decimal digit of Unicode,
the model those of ASCII. -/
def intChar (c : Char) : Option Err := if c.isDigit then none else some .valueError

/-- `int(s[i])`: the exception, if any. -/
def intAt (s : Str) (i : Nat) : Option Err :=
  match s[i]? with
  | none => some .indexError
  | some c => intChar c

/-- The body of the loop, lines 122-135, for the entry `filename`: the exception, if any. -/
def sampleStep (fs : FS) (dir filename : Str) : Option Err :=
  let filepath := pathJoin dir filename
  let ext := splitextExt filename
  if ext.take 5 = ".samp".toList then
    if ext = ".samples".toList then some (loadSample fs filepath)
    else
      match (ext.splitOn '_')[1]? with
      | none => some .indexError
      | some ids =>
        match intAt ids 0 with
        | some e => some e
        | none =>
          match intAt ids 1 with
          | some e => some e
          | none => some (loadSample fs filepath)
  else none

def sampleLoop (fs : FS) (dir : Str) : List Str → Option Err
  | [] => none
  | n :: ns =>
    match sampleStep fs dir n with
    | some e => some e
    | none => sampleLoop fs dir ns

/-- `os.listdir(dir)`: the exception, if any. -/
def listdirErr (fs : FS) (dir : Str) : Option Err :=
  match fs.resolve dir with
  | .error e => some e
  | .ok l =>
    match fs.node l with
    | none => some .fileNotFoundError
    | some (.file _) => some .notADirectoryError
    | some .dir => none

/-- Lines 105-138 with `loadSamples=True`, where `os.listdir` gives the names `names`. -/
def oldLoadSamples [FCodec F] (pl : Plat) (fs : FS) (names : List Str) (path : Str) :
    Except Err (OldMesh F) :=
  match oldLoadPath pl fs path with
  | .error e => .error e
  | .ok m =>
    match listdirErr fs (dirname path) with
    | some e => .error e
    | none =>
      match sampleLoop fs (dirname path) names with
      | some e => .error e
      | none => .ok m

end Bf2
