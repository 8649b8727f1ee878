import Verif.Object

/-!
# Model of loading and saving in `/repo/deprecated/modmesh.py`

The data classes are those of `Mesh` where they agree; `OldLod` keeps at most one node matrix.  A
`read_matrix4` of this module returns 16 floats in one tuple, in the order of `Mat4`.
-/

namespace Bf2

/-- `modmesh.py:241-266`.  `polycount` is `0 + polyInum / 3`.  A lod freshly made has `nodes = []`,
here `none`. -/
structure OldLod (F : Type) where
  min : Vec3 F
  max : Vec3 F
  pivot : Option (Vec3 F)
  rignum : Option Int
  rigs : List (Rig F)
  nodenum : Option Int
  nodes : Option (Mat4 F)
  matnum : Int
  materials : List (Mat F)
  polyInum : Int
  deriving DecidableEq, Repr

/-- `modmesh.py:446-454` -/
structure OldGeom (F : Type) where
  lodnum : Int
  lods : List (OldLod F)
  deriving DecidableEq, Repr

/-- `modmesh.py:558-586`.  `vertices` and `index` are tuples after a load; scripts replace them by
lists: `vertsList`, `indexList` say which they are. -/
structure OldMesh (F : Type) where
  kind : Kind
  head : Head
  u1 : Int
  geomnum : Int
  geoms : List (OldGeom F)
  vertattribnum : Int
  vattrs : List VAttr
  vertformat : Int
  vertstride : Int
  vertnum : Int
  vertices : List F
  vertsList : Bool
  indexnum : Int
  index : List Int
  indexList : Bool
  u2 : Int
  deriving DecidableEq, Repr

variable {F : Type} [FCodec F]

/-! ## Loading -/

/-- `modmesh.py:171-174`: an `h` element. -/
def readSignedShort (pl : Plat) : P Int := do
  let bs ← readBytes 2
  pure (toSigned 2 (pl.dec bs))

/-- `modmesh.py:471-477` -/
def oldLoadVAttr (pl : Plat) : P VAttr := do
  let flag ← readSignedShort pl
  let offset ← readSignedShort pl
  let vartype ← readSignedShort pl
  let usage ← readSignedShort pl
  pure ⟨flag, offset, vartype, usage⟩

/-- `struct.Struct('{}X'.format(n)).unpack(fo.read(size))`: always a tuple. -/
def readTuple {α : Type} (p : P α) (n : Int) : P (List α) :=
  if n < 0 then P.raise .structError else P.rep p n.toNat

/-- `modmesh.py:851-864` -/
def oldLoadVertices (pl : Plat) (vertstride vertformat vertnum : Int) : P (List F) :=
  match dataNum vertstride vertformat vertnum with
  | .error e => P.raise e
  | .ok n => readTuple (readFloat1 pl) n

/-- `modmesh.py:902-904`: each matrix replaces the one before. -/
def oldLoadNodes (pl : Plat) (kind : Kind) (nodenum : Int) : P (Option (Mat4 F)) :=
  if kind.isBundled then pure none else do
    let l ← P.rep (readMatrix4 pl) nodenum.toNat
    pure l.getLast?

/-- `modmesh.py:894-916`: a freshly made lod, filled except for its materials. -/
def oldLoadLodNodes (pl : Plat) (version : Int) (kind : Kind) : P (OldLod F) := do
  let min ← readFloat3 pl
  let max ← readFloat3 pl
  let pivot ← loadPivot pl version
  if kind.isSkinned then do
    let rignum ← readLong pl
    let rigs ← P.rep (loadRig pl) rignum.toNat
    pure ⟨min, max, pivot, some rignum, rigs, none, none, 0, [], 0⟩
  else do
    let nodenum ← readLong pl
    let nodes ← oldLoadNodes pl kind nodenum
    pure ⟨min, max, pivot, none, [], some nodenum, nodes, 0, [], 0⟩

/-- A loop over objects filled from the file, with a local variable living from one iteration to the
next. -/
def P.scan {σ α β : Type} (f : σ → α → P (σ × β)) : σ → List α → P (σ × List β)
  | s, [] => pure (s, [])
  | s, a :: as => do
    let (s', b) ← f s a
    let (s'', bs) ← P.scan f s' as
    pure (s'', b :: bs)

/-- `modmesh.py:923-927`.  The loop variable `material` is used after its loop, so it is the last
material read so far, in this lod or an earlier one; the state is its `inum`.  `bf2mat.read`
(lines 384-411) reads what `loadMat` reads. -/
def oldLoadLodMaterials (pl : Plat) (version : Int) (kind : Kind) (last : Option Int)
    (lod : OldLod F) : P (Option Int × OldLod F) := do
  let matnum ← readLong pl
  let materials ← P.rep (loadMat pl version kind) matnum.toNat
  let last' := match materials.getLast? with
    | some m => some m.inum
    | none => last
  match last' with
  | none => P.raise .unboundLocalError
  | some i => pure (last', { lod with matnum := matnum, materials := materials, polyInum := i })

/-- `modmesh.py:892-893` for one geom. -/
def oldLoadGeomNodes (pl : Plat) (version : Int) (kind : Kind) (lodnum : Int) :
    P (OldGeom F) := do
  let lods ← P.rep (oldLoadLodNodes pl version kind) lodnum.toNat
  pure ⟨lodnum, lods⟩

/-- `modmesh.py:921-922` for one geom. -/
def oldLoadGeomMaterials (pl : Plat) (version : Int) (kind : Kind) (last : Option Int)
    (geom : OldGeom F) : P (Option Int × OldGeom F) := do
  let (last', lods) ← P.scan (oldLoadLodMaterials pl version kind) last geom.lods
  pure (last', { geom with lods := lods })

/-- `modmesh.py:797-930`, the innermost call first. -/
def oldLoadBody (pl : Plat) (kind : Kind) : P (OldMesh F) := do
  let head ← loadHead pl
  let u1 ← readByte
  let geomnum ← readLong pl
  let lodnums ← P.rep (readLong pl) geomnum.toNat
  let vertattribnum ← readLong pl
  let vattrs ← P.rep (oldLoadVAttr pl) vertattribnum.toNat
  let vertformat ← readLong pl
  let vertstride ← readLong pl
  let vertnum ← readLong pl
  let vertices ← oldLoadVertices pl vertstride vertformat vertnum
  let indexnum ← readLong pl
  let index ← readTuple (readShort1 pl) indexnum
  let u2 ← loadU2 pl kind
  let geoms0 ← P.each (oldLoadGeomNodes pl head.version kind) lodnums
  let (_, geoms) ← P.scan (oldLoadGeomMaterials pl head.version kind) none geoms0
  pure { kind, head, u1, geomnum, geoms, vertattribnum, vattrs, vertformat, vertstride, vertnum,
         vertices, vertsList := false, indexnum, index, indexList := false, u2 }

/-- `modmesh.py:589-590`: what follows the mesh in the file is not looked at. -/
def oldLoad (pl : Plat) (kind : Kind) (file : Bytes) : Except Err (OldMesh F) :=
  match oldLoadBody pl kind file with
  | .error e => .error e
  | .ok (m, _) => .ok m

/-- `modmesh.py:111-115`: the kind the extension names. -/
def oldKind (path : Str) : Kind := { kindOfName path with isCollision := false }

/-- `LoadBF2Mesh(path)` without samples, `modmesh.py:105-118` and `137`. -/
def oldLoadPath (pl : Plat) (fs : FS) (path : Str) : Except Err (OldMesh F) :=
  match fs.read path with
  | .error e => .error e
  | .ok content => oldLoad pl (oldKind path) content

/-! ## Saving -/

/-- `fo.write(struct.Struct('nl').pack(*vs))`: nothing is written if one does not fit. -/
def packLongs (pl : Plat) (vs : List Int) : Out :=
  if vs.all (fitsSigned pl.longSize) then
    .write (vs.flatMap fun v => pl.enc pl.longSize (ofSigned pl.longSize v))
  else .raise .structError

/-- The same for `h`. -/
def packSignedShorts (pl : Plat) (vs : List Int) : Out :=
  if vs.all (fitsSigned 2) then .write (vs.flatMap fun v => pl.enc 2 (ofSigned 2 v))
  else .raise .structError

/-- The same for `H`. -/
def packShorts (pl : Plat) (vs : List Int) : Out :=
  if vs.all fitsShort then .write (vs.flatMap fun v => pl.enc 2 v.toNat) else .raise .structError

/-- The same for `f`, which never raises. -/
def packFloats (pl : Plat) (vs : List F) : Out := .write (vs.flatMap (floatBytes pl))

/-- `for i in range(n): f(l[i])` -/
def Out.table {α : Type} (f : α → Out) (l : List α) (n : Int) : Out :=
  .each (fun i => match l[i]? with
    | some a => f a
    | none => .raise .indexError) (List.range n.toNat)

/-- `modmesh.py:935-946` (without the directory and the file) -/
def oldWriteHead (pl : Plat) (h : Head) : Out := packLongs pl [h.u1, h.version, h.u3, h.u4, h.u5]

/-- `modmesh.py:981-987` -/
def oldWriteVAttr (pl : Plat) (a : VAttr) : Out :=
  packSignedShorts pl [a.flag, a.offset, a.vartype, a.usage]

/-- `struct.Struct('16f').pack(*lod.nodes)`: of an empty list, a `struct.error`. -/
def writeMatrix4? (pl : Plat) : Option (Mat4 F) → Out
  | some m => writeMatrix4 pl m
  | none => .raise .structError

/-- `modmesh.py:1046-1064` -/
def oldWriteLodNodes (pl : Plat) (version : Int) (kind : Kind) (l : OldLod F) : Out :=
  .all [writeFloat3 pl l.min, writeFloat3 pl l.max,
    if version ≤ 6 then writeFloat3? pl l.pivot else .nil,
    if kind.isSkinned then .all [writeLong? pl l.rignum, .each (exportRig pl) l.rigs]
    else .all [writeLong? pl l.nodenum,
      if kind.isBundled then .nil
      else .each (fun _ => writeMatrix4? pl l.nodes) (List.range (l.nodenum.getD 0).toNat)]]

/-- `modmesh.py:1069-1095`; the material part is `exportMat`. -/
def oldWriteLodMaterials (pl : Plat) (version : Int) (kind : Kind) (l : OldLod F) : Out :=
  .all [writeLong pl l.matnum, .each (exportMat pl version kind) l.materials]

/-- `modmesh.py:935-1095`: what reaches the file.  Each part closes the file and the next opens it
again to append. -/
def oldSave (pl : Plat) (m : OldMesh F) : Out :=
  .all [oldWriteHead pl m.head, writeByte m.u1,
    writeLong pl m.geomnum, .table (fun g => writeLong pl g.lodnum) m.geoms m.geomnum,
    writeLong pl m.vertattribnum, .table (oldWriteVAttr pl) m.vattrs m.vertattribnum,
    writeLong pl m.vertformat, writeLong pl m.vertstride, writeLong pl m.vertnum,
    packFloats pl m.vertices,
    writeLong pl m.indexnum, packShorts pl m.index,
    if m.kind.isSkinned then .nil else writeLong pl m.u2,
    .each (fun g => .each (oldWriteLodNodes pl m.head.version m.kind) g.lods) m.geoms,
    .each (fun g => .each (oldWriteLodMaterials pl m.head.version m.kind) g.lods) m.geoms]

/-- `VisMesh.save(path)`, `modmesh.py:592-593` and `935-1095`. -/
def oldSavePath (pl : Plat) (fs : FS) (m : OldMesh F) (path : Str) : FS × Option Err :=
  match fs.ensureDir path with
  | (fs1, some e) => (fs1, some e)
  | (fs1, none) =>
    match fs1.openWrite path with
    | .error e => (fs1, some e)
    | .ok (fs2, loc) =>
      let out := oldSave pl m
      (fs2.set loc (.file out.bytes), out.err)

end Bf2
