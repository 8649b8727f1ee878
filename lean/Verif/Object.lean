import Verif.Edit

/-!
# Model of the mesh object: `/repo/bf2mesh/mesh.py`, constructor, context manager and `export`

Paths are POSIX paths (`os.path` is `posixpath`) and the file system is a tree without symbolic
links in which every operation is permitted.  File names with NUL characters or names the file
system cannot represent are not modelled.
-/

namespace Bf2

/-! ## Strings -/

/-- A Python string. -/
abbrev Str := List Char

/-- `s.rfind(c)`: the last position of `c`, or -1. -/
def rfind (c : Char) (s : Str) : Int :=
  match s.reverse.findIdx? (· == c) with
  | none => -1
  | some i => (s.length : Int) - 1 - i

/-- `s.rstrip(c)` -/
def rstrip (c : Char) (s : Str) : Str := (s.reverse.dropWhile (· == c)).reverse

/-- `str.lower` of one character, as far as the result can be ASCII: the Kelvin sign U+212A is the
only character outside ASCII whose lower case is an ASCII string.  All other characters outside
ASCII are left alone here; Python may map them to other strings with characters outside ASCII, which
makes no difference when comparing with an ASCII string. -/
def lowerChar (c : Char) : Char :=
  if 'A' ≤ c ∧ c ≤ 'Z' then Char.ofNat (c.toNat + 32)
  else if c = Char.ofNat 0x212A then 'k'
  else c

/-- `s.lower()` (see `lowerChar`) -/
def lower (s : Str) : Str := s.map lowerChar

/-- The loop of `genericpath._splitext`: is there a character other than a dot in `s`? -/
def notOnlyDots (s : Str) : Bool := s.any (· != '.')

/-- `posixpath.splitext(p)[1]` (`genericpath._splitext` with separator `/`). -/
def splitextExt (p : Str) : Str :=
  let sep := rfind '/' p
  let dot := rfind '.' p
  if dot > sep then
    (if notOnlyDots (pySlice p (sep + 1) dot) then p.drop dot.toNat else [])
  else []

/-- `posixpath.split(p)` -/
def pathSplit (p : Str) : Str × Str :=
  let i := (rfind '/' p + 1).toNat
  let head := p.take i
  let tail := p.drop i
  if head ≠ [] ∧ head ≠ List.replicate head.length '/' then (rstrip '/' head, tail)
  else (head, tail)

/-- `posixpath.dirname(p)` -/
def dirname (p : Str) : Str := (pathSplit p).1

/-! ## File system -/

inductive Node
  | dir
  | file (content : Bytes)
  deriving DecidableEq, Repr

/-- A place in the tree: the names on the way from the root. -/
abbrev Loc := List Str

/-- What exists where, and the current directory. -/
structure FS where
  node : Loc → Option Node
  cwd : Loc

/-- Follow a path, component by component, from the directory `cur`. -/
def FS.walk (fs : FS) (cur : Loc) : List Str → Except Err Loc
  | [] => .ok cur
  | c :: cs =>
    match fs.node cur with
    | none => .error .fileNotFoundError
    | some (.file _) => .error .notADirectoryError
    | some .dir =>
      if c = [] ∨ c = ['.'] then fs.walk cur cs
      else if c = ['.', '.'] then fs.walk cur.dropLast cs
      else fs.walk (cur ++ [c]) cs

/-- The components of a path. -/
def components (p : Str) : List Str := p.splitOn '/'

/-- Where resolution starts. -/
def FS.start (fs : FS) (p : Str) : Loc := if p.head? = some '/' then [] else fs.cwd

/-- Resolve a path to a place, which need not exist itself.  A path that ends in a slash names a
directory: its last component is empty. -/
def FS.resolve (fs : FS) (p : Str) : Except Err Loc :=
  if p = [] then .error .fileNotFoundError else fs.walk (fs.start p) (components p)

/-- `os.path.exists(p)` -/
def FS.exists (fs : FS) (p : Str) : Bool :=
  match fs.resolve p with
  | .error _ => false
  | .ok l => (fs.node l).isSome

/-- Put a node in a place. -/
def FS.set (fs : FS) (l : Loc) (n : Node) : FS :=
  { fs with node := fun q => if q = l then some n else fs.node q }

/-- `os.mkdir(p)`: slashes at the end make no difference. -/
def FS.mkdir (fs : FS) (p : Str) : FS × Option Err :=
  if p = [] then (fs, some .fileNotFoundError)
  else
    match fs.walk (fs.start p) (components (rstrip '/' p)) with
    | .error e => (fs, some e)
    | .ok l =>
      match fs.node l with
      | some _ => (fs, some .fileExistsError)
      | none => (fs.set l .dir, none)

/-- `os.path.split` of `os.makedirs`, which looks past one run of slashes at the end. -/
def makedirsSplit (p : Str) : Str × Str :=
  let s := pathSplit p
  if s.2 = [] then pathSplit s.1 else s

/-- `os.makedirs(p)`.  `fuel` bounds the recursion, which goes to shorter and shorter paths;
`makedirs` below gives it the length of the path. -/
def FS.makedirsN (fuel : Nat) (fs : FS) (p : Str) : FS × Option Err :=
  let s := makedirsSplit p
  if s.1 ≠ [] ∧ s.2 ≠ [] ∧ fs.exists s.1 = false then
    match fuel with
    | 0 => (fs, some .overflowError)
    | fuel + 1 =>
      match FS.makedirsN fuel fs s.1 with
      | (fs', none) => if s.2 = ['.'] then (fs', none) else fs'.mkdir p
      | (fs', some .fileExistsError) => if s.2 = ['.'] then (fs', none) else fs'.mkdir p
      | (fs', some e) => (fs', some e)
  else fs.mkdir p

/-- `os.makedirs(p)` -/
def FS.makedirs (fs : FS) (p : Str) : FS × Option Err := FS.makedirsN p.length fs p

/-- `open(p, 'rb').read()` -/
def FS.read (fs : FS) (p : Str) : Except Err Bytes :=
  match fs.resolve p with
  | .error e => .error e
  | .ok l =>
    match fs.node l with
    | none => .error .fileNotFoundError
    | some .dir => .error .isADirectoryError
    | some (.file b) => .ok b

/-- `open(p, 'wb')`: the place of the file, which exists and is empty afterwards. -/
def FS.openWrite (fs : FS) (p : Str) : Except Err (FS × Loc) :=
  match fs.resolve p with
  | .error e => .error e
  | .ok l =>
    match fs.node l with
    | some .dir => .error .isADirectoryError
    | _ => .ok (fs.set l (.file []), l)

/-! ## The mesh object -/

/-- The keyword flags of the constructor (`mesh.py:5-6`); `visiblemesh.py:28-36` passes no
`isCollisionMesh`. -/
structure Flags where
  isSkinned : Bool
  isBundled : Bool
  isStatic : Bool

/-- `mesh.py:10-15` -/
def kindOfName (filename : Str) : Kind :=
  let ext := lower (splitextExt filename)
  ⟨ext = ".skinnedmesh".toList, ext = ".bundledmesh".toList, ext = ".staticmesh".toList,
   ext = ".collisionmesh".toList⟩

/-- `mesh.py:5-21`: the file name attribute, if it is set at all, and the kind flags. -/
def baseInit (filename : Option Str) (fl : Flags) : Option Str × Kind :=
  match filename with
  | some (c :: cs) => (some (c :: cs), kindOfName (c :: cs))
  | _ => (none, ⟨fl.isSkinned, fl.isBundled, fl.isStatic, false⟩)

/-- A `VisibleMesh` object. -/
structure Obj (F : Type) where
  filename : Str
  isLoaded : Bool
  mesh : Mesh F
  deriving DecidableEq

section
variable {F : Type} [FCodec F]

/-- `visiblemesh.py:28-68` with `__enter__` (70-75): without a file name, line 71 reads an attribute
that was never set.  The object is new, so it is not loaded yet. -/
def construct (pl : Plat) (fs : FS) (filename : Option Str) (fl : Flags) : Except Err (Obj F) :=
  match baseInit filename fl with
  | (none, _) => .error .attributeError
  | (some name, kind) =>
    match fs.read name with
    | .error e => .error e
    | .ok content =>
      match load pl kind content with
      | .error e => .error e
      | .ok m => .ok ⟨name, true, m⟩

/-- `BundledMesh.py:3-5` -/
def constructBundled (pl : Plat) (fs : FS) (filename : Option Str) : Except Err (Obj F) :=
  construct pl fs filename ⟨false, true, false⟩

/-- `visiblemesh.py:70-75` of an existing object: entering a `with` block. -/
def Obj.enter (pl : Plat) (fs : FS) (o : Obj F) : Except Err (Obj F) :=
  if o.filename ≠ [] ∧ o.isLoaded = false then
    match fs.read o.filename with
    | .error e => .error e
    | .ok content =>
      match load pl o.mesh.kind content with
      | .error e => .error e
      | .ok m => .ok { o with isLoaded := true, mesh := m }
  else .ok o

/-- `visiblemesh.py:206-208` -/
def FS.ensureDir (fs : FS) (filename : Str) : FS × Option Err :=
  if fs.exists (dirname filename) then (fs, none) else fs.makedirs (dirname filename)

variable [FArith F]

/-- `visiblemesh.py:211` -/
def boundsFor (m : Mesh F) (updateBounds : Bool) : Mesh F × Option Err :=
  if updateBounds then updateBoundaries m else (m, none)

omit [FArith F] in
/-- `visiblemesh.py:213-215`: the `with` statement closes (and so flushes) the file also when
`__export` raises. -/
def writeOut (pl : Plat) (fs : FS) (o : Obj F) (name : Str) : FS × Obj F × Option Err :=
  match fs.openWrite name with
  | .error e => (fs, o, some e)
  | .ok (fs', l) =>
    match exportMesh pl o.mesh with
    | ⟨bytes, some e⟩ => (fs'.set l (.file bytes), o, some e)
    | ⟨bytes, none⟩ => (fs'.set l (.file bytes), { o with filename := name }, none)

/-- `visiblemesh.py:203` -/
def exportName (own : Str) : Option Str → Str
  | some (c :: cs) => c :: cs
  | _ => own

/-- `visiblemesh.py:202-215` -/
def exportObj (pl : Plat) (fs : FS) (o : Obj F) (filename : Option Str) (updateBounds : Bool) :
    FS × Obj F × Option Err :=
  let name := exportName o.filename filename
  match fs.ensureDir name with
  | (fs1, some e) => (fs1, o, some e)
  | (fs1, none) =>
    match boundsFor o.mesh updateBounds with
    | (m, some e) => (fs1, { o with mesh := m }, some e)
    | (m, none) => writeOut pl fs1 { o with mesh := m } name

end

end Bf2
