import Verif.FloatCodec
import Verif.OldEqual
import Verif.OldStages
import Verif.RepoTests

/-!
# The tests of `/repo/deprecated/tests_vismesh_write.py`

As in `RepoTests`: `.ok true` if no assertion fails, `.ok false` if one does, and otherwise the exception
that the test ends with.
-/

namespace Bf2

/-- `a is b` for two integers that came from two calls of `struct.unpack`: CPython (up to 3.14) keeps one
object for each integer from -5 to 256, and makes a new one for every other. -/
def sameObject (a b : Int) : Bool := decide (a = b ∧ -5 ≤ a ∧ a ≤ 256)

/-- The attribute `polycount` of a lod, `modmesh.py:927`: `0 + inum / 3`. -/
def OldLod.polycount {F : Type} (l : OldLod F) : F64 := F64.ofRat false ((l.polyInum : ℚ) / 3)

/-- `vmesh.geoms[geom].lods[lod]` of a mesh whose nodes have been read -/
def partLod {F : Type} (gs : List (OldGeom F)) (i j : Nat) : Except Err (OldLod F) :=
  match gs[i]? with
  | none => .error .indexError
  | some g =>
    match g.lods[j]? with
    | none => .error .indexError
    | some l => .ok l

/-- Lines 47-51. -/
def assertHeader (p : OldPart F64) (o : OldMesh F64) : Except Err Bool :=
  match p.head with
  | none => .ok false
  | some h =>
    thenAssert (h.u1 = o.head.u1) <|
    thenAssert (h.version = o.head.version) <|
    thenAssert (sameObject h.u3 o.head.u3) <|
    thenAssert (sameObject h.u4 o.head.u4) <|
    .ok (sameObject h.u5 o.head.u5)

/-- Line 91 and 104-105: `vmesh2.geoms[i].lodnum == vmesh.geoms[i].lodnum` -/
def assertLodnum (i : Nat) (p : OldPart F64) (o : OldMesh F64) : Except Err Bool :=
  match p.lodnums[i]?, o.geoms[i]? with
  | some n, some g => .ok (decide (n = g.lodnum))
  | _, _ => .error .indexError

/-- Lines 90-91. -/
def assertGeomTable (p : OldPart F64) (o : OldMesh F64) : Except Err Bool :=
  thenAssert (p.lodnums.length = o.geoms.length) (assertLodnum 0 p o)

/-- Lines 103-105. -/
def assertGeomTableDest (p : OldPart F64) (o : OldMesh F64) : Except Err Bool :=
  thenAssert (p.lodnums.length = o.geoms.length) <|
  match assertLodnum 0 p o with
  | .ok true => assertLodnum 1 p o
  | r => r

/-- Lines 125-126. -/
def assertVattrs (p : OldPart F64) (o : OldMesh F64) : Except Err Bool :=
  assertEach (fun a : Nat × VAttr =>
    match p.vattrs[a.1]? with
    | none => .error .indexError
    | some b => .ok (oldEqVAttr a.2 b)) (numbered o.vattrs)

/-- Lines 206-210. -/
def assertNodes (p : OldPart F64) (o : OldMesh F64) : Except Err Bool :=
  match partLod p.geoms 0 0 with
  | .error e => .error e
  | .ok a =>
    match partLod o.geoms 0 0 with
    | .error e => .error e
    | .ok b =>
      thenAssert (vec3Eq a.min b.min) <|
      thenAssert (vec3Eq a.max b.max) <|
      thenAssert (a.nodenum = b.nodenum) <|
      .ok (optMatEq a.nodes b.nodes)

/-- Lines 220-229. -/
def assertMaterials (p : OldPart F64) (o : OldMesh F64) : Except Err Bool :=
  assertEach (fun g : Nat × OldGeom F64 =>
    assertEach (fun l : Nat × OldLod F64 =>
      match partLod p.geoms g.1 l.1 with
      | .error e => .error e
      | .ok a =>
        thenAssert (l.2.matnum = a.matnum) (.ok (l.2.polycount.feq a.polycount)))
      (numbered g.2.lods)) (numbered o.geoms)

/-- The tests that write and read single parts, lines 40-229: how many parts, and the assertions on the
object read (`vmesh2`) and the one written (`vmesh`).  Lines 167 and 187 compare `vmesh2` with itself. -/
inductive PartTest
  | header | u1 | geomnumStd | geomnumDest | geomTable | geomTableDest | vertattribnum | vattrs | vertformat
  | vertstride | vertnum | vertices | indexnum | index | u2 | nodes | materials
  deriving DecidableEq

def PartTest.parts : PartTest → Nat
  | header => 1
  | u1 => 2
  | geomnumStd => 3
  | geomnumDest => 3
  | geomTable => 4
  | geomTableDest => 4
  | vertattribnum => 5
  | vattrs => 6
  | vertformat => 7
  | vertstride => 8
  | vertnum => 9
  | vertices => 10
  | indexnum => 11
  | index => 12
  | u2 => 13
  | nodes => 14
  | materials => 15

def PartTest.asserts (p : OldPart F64) (o : OldMesh F64) : PartTest → Except Err Bool
  | header => assertHeader p o
  | u1 => .ok (decide (p.u1 = o.u1))
  | geomnumStd => .ok (decide (p.geomnum = o.geomnum))
  | geomnumDest => .ok (decide (p.geomnum = o.geomnum))
  | geomTable => assertGeomTable p o
  | geomTableDest => assertGeomTableDest p o
  | vertattribnum => .ok (decide (p.vertattribnum = o.vertattribnum))
  | vattrs => assertVattrs p o
  | vertformat => .ok (decide (p.vertformat = o.vertformat))
  | vertstride => .ok (decide (p.vertstride = o.vertstride))
  | vertnum => .ok (decide (p.vertnum = o.vertnum))
  | vertices => .ok (decide (p.vertices.length = p.vertices.length))
  | indexnum => .ok (decide (p.indexnum = o.indexnum))
  | index => .ok (decide (p.index.length = p.index.length))
  | u2 => .ok (decide (p.u2 = o.u2))
  | nodes => assertNodes p o
  | materials => assertMaterials p o

/-- One of these tests on the file `path`, with the copy at `clone`.  `VisMesh()` has no flag set. -/
def PartTest.run (t : PartTest) (pl : Plat) (fs : FS) (path clone : Str) : Except Err Bool :=
  match oldLoadPath (F := F64) pl fs path with
  | .error e => .error e
  | .ok o =>
    match writeParts pl fs o clone t.parts with
    | (_, some e) => .error e
    | (fs', none) =>
      match fs'.read clone with
      | .error e => .error e
      | .ok content =>
        match readParts pl ⟨false, false, false, false⟩ t.parts content with
        | .error e => .error e
        | .ok (p, _) => t.asserts p o

/-- `os.stat`: the content if it is a file, `none` if it is a directory. -/
def FS.stat (fs : FS) (p : Str) : Except Err (Option Bytes) :=
  match fs.resolve p with
  | .error e => .error e
  | .ok l =>
    match fs.node l with
    | none => .error .fileNotFoundError
    | some .dir => .ok none
    | some (.file b) => .ok (some b)

/-- `filecmp.cmp(p, q)`: no content is read if sizes and times agree.  `sameTime` says whether the times of
the last modification do. -/
def fileCmp (sameTime : Bool) (fs : FS) (p q : Str) : Except Err Bool :=
  match fs.stat p with
  | .error e => .error e
  | .ok x =>
    match fs.stat q with
    | .error e => .error e
    | .ok y =>
      match x, y with
      | some a, some b => .ok (a.length == b.length && (sameTime || a == b))
      | _, _ => .ok false

/-- `test_can_write_staticmesh_identical` and the two after it, lines 231-247. -/
def identicalTest (sameTime : Bool) (pl : Plat) (fs : FS) (path clone : Str) : Except Err Bool :=
  match oldLoadPath (F := F64) pl fs path with
  | .error e => .error e
  | .ok o =>
    match oldSavePath pl fs o clone with
    | (_, some e) => .error e
    | (fs', none) => fileCmp sameTime fs' path clone

end Bf2
