import Verif.ColTests
import Verif.OldEdit
import Verif.OldSample
import Verif.OldTests
import Verif.OldWriteTests

/-!
# The tests that only read: `/repo/deprecated/tests_vismesh_read.py`, `tests_samples_read.py`, `tests_colmesh_read.py`

As in `RepoTests`: `.ok true` if no assertion fails, `.ok false` if one does, and otherwise the exception
that the test ends with.  The names of the files are parameters.  The tests marked `skip` and `test_for_data`
of `tests_colmesh_read.py`, which ends with a bare `raise`, are left out.
-/

namespace Bf2

/-! ## tests_vismesh_read.py -/

/-- The file is opened, the flags of a new `VisMesh` set to `k`, `n` parts read, and then `check` done. -/
def readTest (pl : Plat) (fs : FS) (path : Str) (k : Kind) (n : Nat) (check : OldPart F64 → Except Err Bool) :
    Except Err Bool :=
  match fs.read path with
  | .error e => .error e
  | .ok content =>
    match readParts pl k n content with
    | .error e => .error e
    | .ok (p, _) => check p

/-- Lines 35-39. -/
def checkHead (p : OldPart F64) : Except Err Bool :=
  match p.head with
  | none => .ok false
  | some h =>
    thenAssert (h.u1 = 0) <|
    thenAssert (decide (h.version ∈ ([10, 6, 11] : List Int))) <|
    thenAssert (h.u3 = 0) <|
    thenAssert (h.u4 = 0) <|
    .ok (decide (h.u5 = 0))

/-- `self.assertTrue(vmesh.geoms[i].lodnum == n)`, and what follows -/
def checkLodnum (p : OldPart F64) (i : Nat) (n : Int) (rest : Except Err Bool) : Except Err Bool :=
  match p.lodnums[i]? with
  | none => .error .indexError
  | some k => thenAssert (k = n) rest

/-- Lines 68-69. -/
def checkTable (p : OldPart F64) : Except Err Bool :=
  thenAssert (p.lodnums.length = p.geomnum ∧ p.geomnum = 1) (checkLodnum p 0 1 (.ok true))

/-- Lines 76-79. -/
def checkTableDest (p : OldPart F64) : Except Err Bool :=
  thenAssert (p.lodnums.length = p.geomnum ∧ p.geomnum = 2) (checkLodnum p 0 2 (checkLodnum p 1 2 (.ok true)))

/-- Lines 104-150: `wanted` are the types and usages named there, `offset` counts on, `attrs` is what is left of
the table, and `rest` what follows. -/
def checkAttrs (rest : List VAttr → Except Err Bool) :
    Int → List (Int × Int) → List VAttr → Except Err Bool
  | _, [], attrs => rest attrs
  | _, _ :: _, [] => .error .indexError
  | offset, (t, u) :: wanted, a :: attrs =>
    thenAssert (a = ⟨0, offset, t, u⟩) <|
      match oldDeclLen a.vartype with
      | .error e => .error e
      | .ok n => checkAttrs rest (offset + n * 4) wanted attrs

/-- Lines 104-157.  (After line 147 the length of the type is not asked for, but the type is known by then.) -/
def checkVattrs (p : OldPart F64) : Except Err Bool :=
  checkAttrs
    (fun
      | [] => .error .indexError
      | a :: _ => thenAssert (a = ⟨255, 0, 17, 0⟩) (.ok (decide (p.vattrs.length = p.vertattribnum))))
    0 [(2, 0), (2, 3), (4, 2), (1, 5), (1, 261), (1, 517), (1, 773), (2, 6)] p.vattrs

/-- Lines 170-172. -/
def sumLens : List VAttr → Except Err Int
  | [] => .ok 0
  | a :: as =>
    match oldDeclLen a.vartype with
    | .error e => .error e
    | .ok n =>
      match sumLens as with
      | .error e => .error e
      | .ok m => .ok (n * 4 + m)

/-- Lines 170-173. -/
def checkStride (p : OldPart F64) : Except Err Bool :=
  match sumLens p.vattrs with
  | .error e => .error e
  | .ok n => .ok (decide (p.vertstride = n))

/-- Line 185: an integer is compared with a float exactly. -/
def checkVertices (p : OldPart F64) : Except Err Bool :=
  if p.vertformat = 0 then .error .zeroDivisionError
  else .ok (decide ((p.vertices.length : ℚ) = rndVal 52 (-1074) ((p.vertnum * p.vertstride : ℤ) / (p.vertformat : ℚ))))

/-- Line 199. -/
def checkIndex (p : OldPart F64) : Except Err Bool :=
  .ok (decide (p.index.length = p.indexnum ∧ p.indexnum = 36))

/-- `(-0.5, 0, -0.5)` and `(0.5, 1.0, 0.5)` -/
def boxMin : Vec3 F64 := ⟨F64.ofRat false (-1 / 2), F64.ofRat false 0, F64.ofRat false (-1 / 2)⟩
def boxMax : Vec3 F64 := ⟨F64.ofRat false (1 / 2), F64.ofRat false 1, F64.ofRat false (1 / 2)⟩

/-- Lines 213-216. -/
def checkNodes (p : OldPart F64) : Except Err Bool :=
  match partLod p.geoms 0 0 with
  | .error e => .error e
  | .ok l =>
    thenAssert (eqVec3 l.min boxMin) <|
    thenAssert (eqVec3 l.max boxMax) <|
    .ok (decide (l.nodenum = some 1))

/-- Line 224. -/
def checkNodesBundled (p : OldPart F64) : Except Err Bool :=
  match partLod p.geoms 0 0 with
  | .error e => .error e
  | .ok l => .ok (decide (l.nodenum = some 1))

/-- Lines 232-234. -/
def checkRigs (p : OldPart F64) : Except Err Bool :=
  .ok (p.geoms.all fun g => g.lods.all fun l => decide (l.rignum = some 1))

/-- `maps[i] == name` and what follows -/
def checkMap (maps : List Bytes) (i : Nat) (name : Bytes) (rest : Except Err Bool) : Except Err Bool :=
  match maps[i]? with
  | none => .error .indexError
  | some b => thenAssert (b = name) rest

def ascii (s : String) : Bytes := s.toList.map fun c => c.toNat.toUInt8

def boxMap0 : Bytes := ascii "objects/staticobjects/test/evil_box/textures/evil_box_c.dds"
def boxMap1 : Bytes := ascii "Common\\Textures\\SpecularLUT_pow36.dds"
def kitsMap : Bytes := ascii "objects/kits/mec/textures/mec_kits_c.dds"

/-- `mmin == (…)`, where `mmin` may be `None` -/
def eqBound (a : Option (Vec3 F64)) (b : Vec3 F64) : Bool := a.any fun v => eqVec3 v b

/-- Lines 255-269. -/
def checkMaterial (l : OldLod F64) (m : Mat F64) : Except Err Bool :=
  thenAssert (m.alphamode = some 0) <|
  thenAssert (m.fxfile = ascii "StaticMesh.fx") <|
  thenAssert (m.technique = ascii "Base") <|
  thenAssert (m.mapnum = 2) <|
  checkMap m.maps 0 boxMap0 <|
  checkMap m.maps 1 boxMap1 <|
  thenAssert (m.vstart = 0) <|
  thenAssert (m.istart = 0) <|
  thenAssert (m.inum = 36) <|
  thenAssert (m.vnum = 25) <|
  thenAssert (m.u4 = 8064) <|
  thenAssert (m.u5 = 65535) <|
  thenAssert (eqBound m.mmin boxMin) <|
  thenAssert (eqBound m.mmax boxMax) <|
  .ok (l.polycount.feq (F64.ofRat false 12))

/-- Lines 254-269. -/
def checkMaterials (p : OldPart F64) : Except Err Bool :=
  match partLod p.geoms 0 0 with
  | .error e => .error e
  | .ok l =>
    thenAssert (l.matnum = 1) <|
    match l.materials[0]? with
    | none => .error .indexError
    | some m => checkMaterial l m

/-- Line 281, for one material after the other. -/
def checkFirstMaps : List (Mat F64) → Except Err Bool
  | [] => .ok true
  | m :: ms => checkMap m.maps 0 kitsMap (checkFirstMaps ms)

/-- Lines 277-281. -/
def checkKits (p : OldPart F64) : Except Err Bool :=
  checkFirstMaps (p.geoms.flatMap fun g => g.lods.flatMap (·.materials))

/-- The tests that read with the methods of `VisMesh`, in the order of the file. -/
inductive ReadTest
  | header | u1 | geomnum | geomnumDest | table | tableDest | vertattribnum | vattrs | vertformat | vertstride
  | vertnum | vertices | indexnum | index | u2 | nodes | nodesBundled | nodesSkinned | materials
  | materialsSkinned
  deriving DecidableEq, Repr

/-- How many parts the test reads. -/
def ReadTest.parts : ReadTest → Nat
  | header => 1
  | u1 => 2
  | geomnum => 3
  | geomnumDest => 3
  | table => 4
  | tableDest => 4
  | vertattribnum => 5
  | vattrs => 6
  | vertformat => 7
  | vertstride => 8
  | vertnum => 9
  | vertices => 10
  | indexnum => 11
  | index => 12
  | u2 => 13
  | nodes => 14
  | nodesBundled => 14
  | nodesSkinned => 14
  | materials => 15
  | materialsSkinned => 15

/-- The flags that the test sets. -/
def ReadTest.kind : ReadTest → Kind
  | nodesBundled => ⟨false, true, false, false⟩
  | nodesSkinned => ⟨true, false, false, false⟩
  | materialsSkinned => ⟨true, false, false, false⟩
  | _ => ⟨false, false, false, false⟩

/-- The assertions. -/
def ReadTest.check (p : OldPart F64) : ReadTest → Except Err Bool
  | header => checkHead p
  | u1 => .ok (decide (p.u1 = 0))
  | geomnum => .ok (decide (p.geomnum = 1))
  | geomnumDest => .ok (decide (p.geomnum = 2))
  | table => checkTable p
  | tableDest => checkTableDest p
  | vertattribnum => .ok (decide (p.vertattribnum = 9))
  | vattrs => checkVattrs p
  | vertformat => .ok (decide (p.vertformat = 4))
  | vertstride => checkStride p
  | vertnum => .ok (decide (p.vertnum = 25))
  | vertices => checkVertices p
  | indexnum => .ok (decide (p.indexnum = 36))
  | index => checkIndex p
  | u2 => .ok (sameObject p.u2 8)
  | nodes => checkNodes p
  | nodesBundled => checkNodesBundled p
  | nodesSkinned => checkRigs p
  | materials => checkMaterials p
  | materialsSkinned => checkKits p

/-- Lines 30-281. -/
def ReadTest.run (pl : Plat) (fs : FS) (path : Str) (t : ReadTest) : Except Err Bool :=
  readTest pl fs path t.kind t.parts (fun p => t.check p)

/-- Lines 283-296: `LoadBF2Mesh`, and the flag that `flag` looks at. -/
def loadTest (pl : Plat) (fs : FS) (path : Str) (flag : Kind → Bool) : Except Err Bool :=
  match oldLoadPath (F := F64) pl fs path with
  | .error e => .error e
  | .ok o => .ok (flag o.kind)

/-! ## tests_samples_read.py -/

/-- Lines 11-36: three tests that open the file and then ask for `modmesh.StdSample`, which is not there. -/
def sampleReadTest (fs : FS) (path : Str) : Except Err Bool :=
  match fs.read path with
  | .error e => .error e
  | .ok _ => .error .attributeError

/-- `test_can_load_samplefile`, lines 38-40 -/
def sampleLoadTest (fs : FS) (path : Str) : Except Err Bool := .error (loadSample fs path)

/-- `test_can_load_bf2_mesh_with_samples`, lines 42-45; `sample` is an attribute of every lod. -/
def samplesTest (pl : Plat) (fs : FS) (names : List Str) (path : Str) : Except Err Bool :=
  match oldLoadSamples (F := F64) pl fs names path with
  | .error e => .error e
  | .ok o =>
    match partLod o.geoms 0 0 with
    | .error e => .error e
    | .ok _ => .error .attributeError

/-! ## tests_colmesh_read.py -/

/-- `test_can_read_header`, lines 15-21 -/
def colReadHeaderTest (pl : Plat) (fs : FS) (path : Str) : Except Err Bool :=
  match fs.read path with
  | .error e => .error e
  | .ok content =>
    match readColHeader pl content with
    | .error e => .error e
    | .ok (h, _) => thenAssert (h.1 = 0) (.ok (decide (h.2 = 10)))

/-- `l[i]` and what follows -/
def atIndex {α : Type} (l : List α) (i : Nat) (rest : α → Except Err Bool) : Except Err Bool :=
  match l[i]? with
  | none => .error .indexError
  | some a => rest a

/-- `test_can_read_geoms`, lines 23-45; `tell()` is what has been read. -/
def colReadGeomsTest (pl : Plat) (fs : FS) (path : Str) : Except Err Bool :=
  match fs.read path with
  | .error e => .error e
  | .ok content =>
    match readCol (F := F64) pl content with
    | .error e => .error e
    | .ok (m, rest) =>
      thenAssert (content.length - rest.length = 1511) <|
      thenAssert (m.geoms.length = m.geomnum ∧ m.geomnum = 1) <|
      atIndex m.geoms 0 fun geom =>
      thenAssert (geom.subgeomnum = 1) <|
      atIndex geom.subgeoms 0 fun sub =>
      thenAssert (sub.lodnum = 3) <|
      atIndex sub.lods 0 fun lod =>
      atIndex sub.lods 1 fun _ =>
      atIndex sub.lods 2 fun _ =>
      thenAssert (lod.coltype = 0) <|
      thenAssert (lod.facenum = 12) <|
      thenAssert (lod.u7 = 49) <|
      thenAssert (lod.ynum = 3) <|
      thenAssert (lod.znum = 12) <|
      .ok (decide (lod.anum = 36))

/-- `test_can_read_colmesh`, lines 47-49 -/
def colReadTest (pl : Plat) (fs : FS) (path : Str) : Except Err Bool :=
  match loadColPath (F := F64) pl fs path with
  | .error e => .error e
  | .ok _ => .ok true

end Bf2
