import Verif.Edit
import Verif.Object
import Verif.Equal

/-!
# Model of `/repo/deprecated/modcolmesh.py`: collision meshes

With the parts of `modIO.py` and `modVec3.py` it uses.  The `fmt` strings of `modIO.py` are native and
of one element each, so `Codec.lean` describes them, except that shorts are signed here (`'h'`).

The meshes are parametrised by the type `φ` of their faces: face objects for loading, saving and
comparing, addresses of face objects in a heap for merging, where two meshes can share a face object.
All other objects are either never mutated or never shared.
-/

namespace Bf2

/-- `modcolmesh.py:68-100`.  The constructor sets `material`, reading sets `m`; the attribute `m` does
not exist before. -/
structure ColFace where
  v1 : Int
  v2 : Int
  v3 : Int
  material : Int
  m : Option Int
  deriving DecidableEq, Repr

/-- `modcolmesh.py:27-37` -/
structure ColY (F : Type) where
  u1 : F
  u2 : Int
  u3 : Int
  u4 : Int
  u5 : Int
  deriving DecidableEq, Repr

/-- `modcolmesh.py:103-133` -/
structure ColLod (F φ : Type) where
  coltype : Int
  facenum : Int
  faces : List φ
  vertnum : Int
  vertices : List (Vec3 F)
  vertids : List Int
  min : Vec3 F
  max : Vec3 F
  u7 : Int
  bmin : Vec3 F
  bmax : Vec3 F
  ynum : Int
  ydata : List (ColY F)
  znum : Int
  zdata : List Int
  anum : Int
  adata : List Int
  deriving DecidableEq, Repr

/-- `modcolmesh.py:343-347` -/
structure ColSub (F φ : Type) where
  lodnum : Int
  lods : List (ColLod F φ)
  deriving DecidableEq, Repr

/-- `modcolmesh.py:375-379` -/
structure ColGeom (F φ : Type) where
  subgeomnum : Int
  subgeoms : List (ColSub F φ)
  deriving DecidableEq, Repr

/-- `modcolmesh.py:407-416` -/
structure ColMesh (F φ : Type) where
  u1 : Int
  version : Int
  geomnum : Int
  geoms : List (ColGeom F φ)
  deriving DecidableEq, Repr

section
variable {F φ : Type} [FCodec F]

/-! ## Reading -/

/-- `modIO.py:27-31`: format `'h'` -/
def readSShort (pl : Plat) : P Int := do
  let bs ← readBytes 2
  pure (toSigned 2 (pl.dec bs))

/-- `modcolmesh.py:83-87` on the object made by `bf2colface()`, whose `material` is 0. -/
def readFace (pl : Plat) : P ColFace := do
  let v1 ← readSShort pl
  let v2 ← readSShort pl
  let v3 ← readSShort pl
  let m ← readSShort pl
  pure ⟨v1, v2, v3, 0, some m⟩

/-- `modcolmesh.py:39-44` -/
def readY (pl : Plat) : P (ColY F) := do
  let u1 ← readFloat1 pl
  let u2 ← readSShort pl
  let u3 ← readSShort pl
  let u4 ← readLong pl
  let u5 ← readLong pl
  pure ⟨u1, u2, u3, u4, u5⟩

/-- `coltype(n)` of the enumeration `modcolmesh.py:20-25`: `ValueError` for other numbers. -/
def readColtype (pl : Plat) : P Int := do
  let t ← readLong pl
  if 0 ≤ t ∧ t ≤ 4 then pure t else P.raise .valueError

/-- `modcolmesh.py:238-239`; `coltype` of a new lod is 0. -/
def readLodType (pl : Plat) (version : Int) : P Int :=
  if 9 ≤ version then readColtype pl else pure 0

/-- A count and that many elements: `modcolmesh.py:261-265`, `311-315`, `323-325`, `333-335`. -/
def readCounted {α : Type} (pl : Plat) (p : P α) : P (Int × List α) := do
  let n ← readLong pl
  let l ← P.rep p n.toNat
  pure (n, l)

/-- `modcolmesh.py:246-247`; `anum` and `adata` of a new lod are 0 and empty. -/
def readAdata (pl : Plat) (version : Int) : P (Int × List Int) :=
  if 10 ≤ version then readCounted pl (readLong pl) else pure (0, [])

/-- `modcolmesh.py:273-282`; `vertids` of a new lod is empty. -/
def readVertices (pl : Plat) : P (Int × List (Vec3 F) × List Int) := do
  let n ← readLong pl
  let vs ← P.rep (readFloat3 pl) n.toNat
  let ids ← P.rep (readSShort pl) n.toNat
  pure (n, vs, ids)

/-- `modcolmesh.py:293-300` -/
def readBounds (pl : Plat) : P (Vec3 F × Vec3 F × Int × Vec3 F × Vec3 F) := do
  let min ← readFloat3 pl
  let max ← readFloat3 pl
  let u7 ← readByte
  let bmin ← readFloat3 pl
  let bmax ← readFloat3 pl
  pure (min, max, u7, bmin, bmax)

/-- `modcolmesh.py:237-247` on the object made by `bf2collod()`. -/
def readLod (pl : Plat) (version : Int) : P (ColLod F ColFace) := do
  let t ← readLodType pl version
  let f ← readCounted pl (readFace pl)
  let v ← readVertices pl
  let b ← readBounds pl
  let y ← readCounted pl (readY pl)
  let z ← readCounted pl (readSShort pl)
  let a ← readAdata pl version
  pure ⟨t, f.1, f.2, v.1, v.2.1, v.2.2, b.1, b.2.1, b.2.2.1, b.2.2.2.1, b.2.2.2.2, y.1, y.2, z.1, z.2,
    a.1, a.2⟩

/-- `modcolmesh.py:353-357` -/
def readSub (pl : Plat) (version : Int) : P (ColSub F ColFace) := do
  let n ← readLong pl
  let l ← P.rep (readLod pl version) n.toNat
  pure ⟨n, l⟩

/-- `modcolmesh.py:385-389` -/
def readGeom (pl : Plat) (version : Int) : P (ColGeom F ColFace) := do
  let n ← readLong pl
  let l ← P.rep (readSub pl version) n.toNat
  pure ⟨n, l⟩

/-- `modcolmesh.py:433-451` -/
def readCol (pl : Plat) : P (ColMesh F ColFace) := do
  let u1 ← readLong pl
  let version ← readLong pl
  let n ← readLong pl
  let l ← P.rep (readGeom pl version) n.toNat
  pure ⟨u1, version, n, l⟩

/-- `modcolmesh.py:418-420` on the content of the file; nothing checks that all of it was read. -/
def loadCol (pl : Plat) (file : Bytes) : Except Err (ColMesh F ColFace) :=
  match readCol pl file with
  | .ok (m, _) => .ok m
  | .error e => .error e

/-! ## Writing -/

/-- `modIO.py:58-62`: out of range is `struct.error`. -/
def writeSShort (pl : Plat) (v : Int) : Out :=
  if fitsSigned 2 v then .write (pl.enc 2 (ofSigned 2 v)) else .raise .structError

/-- `modcolmesh.py:89-93` -/
def writeFace (pl : Plat) (f : ColFace) : Out :=
  .all [writeSShort pl f.v1, writeSShort pl f.v2, writeSShort pl f.v3, writeSShort pl f.material]

/-- `modcolmesh.py:46-51` -/
def writeY (pl : Plat) (y : ColY F) : Out :=
  .all [writeFloat pl y.u1, writeSShort pl y.u2, writeSShort pl y.u3, writeLong pl y.u4,
    writeLong pl y.u5]

/-- `modcolmesh.py:249-259` with the methods it calls (267-341). -/
def writeLod (pl : Plat) (version : Int) (l : ColLod F ColFace) : Out :=
  .all [
    if 9 ≤ version then writeLong pl l.coltype else .nil,
    writeLong pl l.facenum, .each (writeFace pl) l.faces,
    writeLong pl l.vertnum, .each (writeFloat3 pl) l.vertices, .each (writeSShort pl) l.vertids,
    writeFloat3 pl l.min, writeFloat3 pl l.max, writeByte l.u7, writeFloat3 pl l.bmin,
    writeFloat3 pl l.bmax,
    writeLong pl l.ynum, .each (writeY pl) l.ydata,
    writeLong pl l.znum, .each (writeSShort pl) l.zdata,
    if 10 ≤ version then .all [writeLong pl l.anum, .each (writeLong pl) l.adata] else .nil]

/-- `modcolmesh.py:359-363` -/
def writeSub (pl : Plat) (version : Int) (s : ColSub F ColFace) : Out :=
  .all [writeLong pl s.lodnum, .each (writeLod pl version) s.lods]

/-- `modcolmesh.py:391-395` -/
def writeGeom (pl : Plat) (version : Int) (g : ColGeom F ColFace) : Out :=
  .all [writeLong pl g.subgeomnum, .each (writeSub pl version) g.subgeoms]

/-- `modcolmesh.py:453-459` -/
def writeCol (pl : Plat) (m : ColMesh F ColFace) : Out :=
  .all [writeLong pl m.u1, writeLong pl m.version, writeLong pl m.geomnum,
    .each (writeGeom pl m.version) m.geoms]

/-! ## The file system -/

/-- `modcolmesh.py:409-420`: `ColMesh(filename)`. -/
def constructCol (pl : Plat) (fs : FS) : Option Str → Except Err (ColMesh F ColFace)
  | some (c :: cs) =>
    match fs.read (c :: cs) with
    | .error e => .error e
    | .ok content => loadCol pl content
  | _ => .ok ⟨0, 0, 0, []⟩

/-- `modcolmesh.py:422-427` -/
def saveCol (pl : Plat) (fs : FS) (m : ColMesh F ColFace) (name : Str) : FS × Option Err :=
  match fs.ensureDir name with
  | (fs1, some e) => (fs1, some e)
  | (fs1, none) =>
    match fs1.openWrite name with
    | .error e => (fs1, some e)
    | .ok (fs2, l) =>
      match writeCol pl m with
      | ⟨bytes, err⟩ => (fs2.set l (.file bytes), err)

end

/-! ## Moving and merging -/

section
variable {F φ : Type} [FArith F]

/-- `modVec3.py:28-29` -/
def Vec3.plus (a b : Vec3 F) : Vec3 F := ⟨FArith.add a.x b.x, FArith.add a.y b.y, FArith.add a.z b.z⟩

/-- `modcolmesh.py:461-466` -/
def colTranslate (off : Vec3 F) (m : ColMesh F φ) : ColMesh F φ :=
  { m with geoms := m.geoms.map fun g =>
    { g with subgeoms := g.subgeoms.map fun s =>
      { s with lods := s.lods.map fun l =>
        { l with vertices := l.vertices.map fun v => v.plus off } } } }

/-- The face objects, by address. -/
abbrev Heap := Nat → ColFace

/-- `face.v1 += n; face.v2 += n; face.v3 += n` (`modcolmesh.py:143-145`) -/
def ColFace.shift (n : Int) (f : ColFace) : ColFace :=
  { f with v1 := f.v1 + n, v2 := f.v2 + n, v3 := f.v3 + n }

/-- `modcolmesh.py:142-147` for an `other` that is not `self`: every face of `other` is changed in
place and appended to the faces of `self`. -/
def mergeFaces (n : Int) : Heap → List Nat → List Nat → Heap × List Nat
  | h, self, [] => (h, self)
  | h, self, a :: as =>
    mergeFaces n (Function.update h a ((h a).shift n)) (self ++ [a]) as

/-- `if low > v: low = v` (`modcolmesh.py:154-155`) -/
def lower1 (low v : F) : F := if FArith.lt v low then v else low
/-- `if high < v: high = v` (`modcolmesh.py:156-157`) -/
def raise1 (high v : F) : F := if FArith.lt high v then v else high

/-- One vertex of `modcolmesh.py:151-162`, lower bounds; the attributes of a vertex are `x`, `y` and
`z`. -/
def lowerTo (low v : Vec3 F) : Vec3 F := ⟨lower1 low.x v.x, lower1 low.y v.y, lower1 low.z v.z⟩
/-- The same for upper bounds. -/
def raiseTo (high v : Vec3 F) : Vec3 F := ⟨raise1 high.x v.x, raise1 high.y v.y, raise1 high.z v.z⟩

/-- `modcolmesh.py:135-173`; `other` is another lod. -/
def colMergeLod (h : Heap) (self other : ColLod F Nat) : Heap × ColLod F Nat :=
  let vertices := self.vertices ++ other.vertices
  match mergeFaces other.vertnum h self.faces other.faces with
  | (h', faces) =>
    (h', { self with
      vertices := vertices
      vertnum := self.vertnum + other.vertnum
      vertids := self.vertids ++ other.vertids
      faces := faces
      facenum := self.facenum + other.facenum
      min := vertices.foldl lowerTo self.min
      max := vertices.foldl raiseTo self.max
      bmin := vertices.foldl lowerTo self.bmin
      bmax := vertices.foldl raiseTo self.bmax
      ydata := self.ydata ++ other.ydata
      ynum := self.ynum + other.ynum
      zdata := self.zdata ++ other.zdata
      znum := self.znum + other.znum
      adata := self.adata ++ other.adata
      anum := self.anum + other.anum })

/-- `for id, x in enumerate(other): self[id].merge(x)`: `IndexError` when `self` is shorter; what was
merged before stays merged. -/
def mergeAll {α : Type} (f : Heap → α → α → Heap × α × Option Err) :
    Heap → List α → List α → Heap × List α × Option Err
  | h, self, [] => (h, self, none)
  | h, [], _ :: _ => (h, [], some .indexError)
  | h, a :: as, b :: bs =>
    match f h a b with
    | (h', a', some e) => (h', a' :: as, some e)
    | (h', a', none) =>
      match mergeAll f h' as bs with
      | (h'', as', e) => (h'', a' :: as', e)

/-- `modcolmesh.py:349-351` -/
def colMergeSub (h : Heap) (self other : ColSub F Nat) : Heap × ColSub F Nat × Option Err :=
  match mergeAll (fun h a b => ((colMergeLod h a b).1, (colMergeLod h a b).2, none)) h self.lods
    other.lods with
  | (h', lods, e) => (h', { self with lods := lods }, e)

/-- `modcolmesh.py:381-383` -/
def colMergeGeom (h : Heap) (self other : ColGeom F Nat) : Heap × ColGeom F Nat × Option Err :=
  match mergeAll colMergeSub h self.subgeoms other.subgeoms with
  | (h', subgeoms, e) => (h', { self with subgeoms := subgeoms }, e)

/-- `modcolmesh.py:429-431` -/
def colMerge (h : Heap) (self other : ColMesh F Nat) : Heap × ColMesh F Nat × Option Err :=
  match mergeAll colMergeGeom h self.geoms other.geoms with
  | (h', geoms, e) => (h', { self with geoms := geoms }, e)

end

/-- The loop `modcolmesh.py:142-147` when `other` is `self`: the heap, the list of faces, and the
position of the iterator in that same list.  `none` when the loop has ended. -/
structure SelfMerge where
  heap : Heap
  faces : List Nat
  pos : Nat

/-- One round of that loop. -/
def SelfMerge.step (n : Int) (s : SelfMerge) : Option SelfMerge :=
  match s.faces[s.pos]? with
  | none => none
  | some a => some ⟨Function.update s.heap a ((s.heap a).shift n), s.faces ++ [a], s.pos + 1⟩

/-! ## Comparing

As in `Equal.lean`, the two operands share no object, so that list elements are compared by `==`. -/

/-- `modcolmesh.py:77-81`; the attribute `m` may be missing. -/
def eqFace (a b : ColFace) : Except Err Bool :=
  if a.v1 = b.v1 ∧ a.v2 = b.v2 ∧ a.v3 = b.v3 then
    match a.m, b.m with
    | some x, some y => .ok (x == y)
    | _, _ => .error .attributeError
  else .ok false

/-- `modcolmesh.py:53-58` -/
def eqY (a b : ColY F64) : Bool :=
  a.u1.feq b.u1 && a.u2 == b.u2 && a.u3 == b.u3 && a.u4 == b.u4 && a.u5 == b.u5

/-- `a == b` for lists: lengths first, then elements up to the first that differ. -/
def listEq {α : Type} (eq : α → α → Except Err Bool) (a b : List α) : Except Err Bool :=
  if a.length ≠ b.length then .ok false else eqEach eq a b

/-- `a == b` for lists of elements whose comparison does not raise. -/
def listEqB {α : Type} (eq : α → α → Bool) : List α → List α → Bool
  | [], [] => true
  | x :: xs, y :: ys => eq x y && listEqB eq xs ys
  | _, _ => false

/-- The comparisons of `modcolmesh.py:175-231` that do not raise. -/
def eqLodRest (a b : ColLod F64 ColFace) : Bool :=
  a.coltype == b.coltype && a.facenum == b.facenum && a.vertnum == b.vertnum &&
  listEqB vec3Eq a.vertices b.vertices && a.vertids == b.vertids && vec3Eq a.min b.min &&
  vec3Eq a.max b.max && a.u7 == b.u7 && vec3Eq a.bmin b.bmin && vec3Eq a.bmax b.bmax &&
  a.ynum == b.ynum && listEqB eqY a.ydata b.ydata && a.znum == b.znum && a.zdata == b.zdata &&
  a.anum == b.anum && a.adata == b.adata

/-- `modcolmesh.py:175-231`: nothing is skipped, whatever differs before. -/
def eqColLod (a b : ColLod F64 ColFace) : Except Err Bool :=
  match listEq eqFace a.faces b.faces with
  | .error e => .error e
  | .ok f => .ok (f && eqLodRest a b)

/-- `modcolmesh.py:365-372` -/
def eqColSub (a b : ColSub F64 ColFace) : Except Err Bool :=
  match listEq eqColLod a.lods b.lods with
  | .error e => .error e
  | .ok l => .ok (a.lodnum == b.lodnum && l)

/-- `modcolmesh.py:397-404` -/
def eqColGeom (a b : ColGeom F64 ColFace) : Except Err Bool :=
  match listEq eqColSub a.subgeoms b.subgeoms with
  | .error e => .error e
  | .ok l => .ok (a.subgeomnum == b.subgeomnum && l)

end Bf2
