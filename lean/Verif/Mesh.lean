import Verif.Codec
import Verif.Float64

/-!
# Model of the data classes, `__load` and `__export` of `/repo/bf2mesh/visiblemesh.py`

Fields the constructors initialise to `None` and `load` always sets (`lod.min`, `material.vstart`,
...) are not optional here: a mesh object exists for the user only after `__load` succeeded.
Fields that may stay `None` after a load (`alphamode`, `mmin`, `mmax`, `pivot`) are `Option`s.
-/

namespace Bf2

/-- Flags set by `mesh.py:12-20`. -/
structure Kind where
  isSkinned : Bool
  isBundled : Bool
  isStatic : Bool
  isCollision : Bool
  deriving DecidableEq, Repr

/-- `visiblemesh.py:597-607` -/
structure Head where
  u1 : Int
  version : Int
  u3 : Int
  u4 : Int
  u5 : Int
  deriving DecidableEq, Repr

/-- `visiblemesh.py:645-667` -/
structure Mat (F : Type) where
  alphamode : Option Int
  fxfile : Bytes
  technique : Bytes
  mapnum : Int
  maps : List Bytes
  vstart : Int
  istart : Int
  inum : Int
  vnum : Int
  u4 : Int
  u5 : Int
  mmin : Option (Vec3 F)
  mmax : Option (Vec3 F)
  deriving DecidableEq, Repr

/-- `visiblemesh.py:936-940` -/
structure Bone (F : Type) where
  id : Int
  matrix : Mat4 F
  deriving DecidableEq, Repr

/-- `visiblemesh.py:906-909` -/
structure Rig (F : Type) where
  bonenum : Int
  bones : List (Bone F)
  deriving DecidableEq, Repr

/-- `visiblemesh.py:789-811` (the `sample` attribute is never used by the package). -/
structure Lod (F : Type) where
  min : Vec3 F
  max : Vec3 F
  pivot : Option (Vec3 F)
  rignum : Int
  rigs : List (Rig F)
  nodenum : Int
  nodes : List (Mat4 F)
  matnum : Int
  materials : List (Mat F)
  deriving DecidableEq, Repr

/-- `visiblemesh.py:766-773` -/
structure Geom (F : Type) where
  lodnum : Int
  lods : List (Lod F)
  deriving DecidableEq, Repr

/-- `visiblemesh.py:951-961` -/
structure VAttr where
  flag : Int
  offset : Int
  vartype : Int
  usage : Int
  deriving DecidableEq, Repr

/-- `visiblemesh.py:28-66`: the mesh data and the kind flags it is interpreted with. -/
structure Mesh (F : Type) where
  kind : Kind
  head : Head
  u1 : Int
  geomnum : Int
  geoms : List (Geom F)
  vertattribnum : Int
  vattrs : List VAttr
  vertformat : Int
  vertstride : Int
  vertnum : Int
  vertices : List F
  indexnum : Int
  index : OneOrMany Int
  u2 : Int
  deriving DecidableEq, Repr

variable {F : Type} [FCodec F]

/-! ## Loading -/

/-- `visiblemesh.py:609-614` -/
def loadHead (pl : Plat) : P Head := do
  let u1 ← readLong pl
  let version ← readLong pl
  let u3 ← readLong pl
  let u4 ← readLong pl
  let u5 ← readLong pl
  pure ⟨u1, version, u3, u4, u5⟩

/-- `visiblemesh.py:963-967` -/
def loadVAttr (pl : Plat) : P VAttr := do
  let flag ← readShort1 pl
  let offset ← readShort1 pl
  let vartype ← readShort1 pl
  let usage ← readShort1 pl
  pure ⟨flag, offset, vartype, usage⟩

/-- `visiblemesh.py:165`: `int(vertstride / vertformat * vertnum)`. -/
def dataNum (vertstride vertformat vertnum : Int) : Except Err Int :=
  if vertformat = 0 then .error .zeroDivisionError
  else .ok (intDivMul vertstride vertformat vertnum)

/-- `visiblemesh.py:163-168`.  Line 167 evaluates `len(self.vertices)`, a `TypeError` when
`read_float` returned a bare float. -/
def loadVertices (pl : Plat) (vertstride vertformat vertnum : Int) : P (List F) :=
  match dataNum vertstride vertformat vertnum with
  | .error e => P.raise e
  | .ok n => do
    match ← readFloat pl n with
    | .one _ => P.raise .typeError
    | .many l => pure l

/-- One iteration of the loop of `visiblemesh.py:926-928`. -/
def loadBone (pl : Plat) : P (Bone F) := do
  let id ← readLong pl
  let matrix ← readMatrix4 pl
  pure ⟨id, matrix⟩

/-- `visiblemesh.py:922-928`; `range` of a negative count is empty. -/
def loadRig (pl : Plat) : P (Rig F) := do
  let bonenum ← readLong pl
  let bones ← P.rep (loadBone pl) bonenum.toNat
  pure ⟨bonenum, bones⟩

/-- `visiblemesh.py:858-860` -/
def loadPivot (pl : Plat) (version : Int) : P (Option (Vec3 F)) :=
  if version ≤ 6 then do
    let v ← readFloat3 pl
    pure (some v)
  else pure none

/-- `visiblemesh.py:872-874` -/
def loadNodes (pl : Plat) (kind : Kind) (nodenum : Int) : P (List (Mat4 F)) :=
  if kind.isBundled then pure [] else P.rep (readMatrix4 pl) nodenum.toNat

/-- `visiblemesh.py:852-874`: a freshly made lod, filled except for its materials. -/
def loadLodNodes (pl : Plat) (version : Int) (kind : Kind) : P (Lod F) := do
  let min ← readFloat3 pl
  let max ← readFloat3 pl
  let pivot ← loadPivot pl version
  if kind.isSkinned then do
    let rignum ← readLong pl
    let rigs ← P.rep (loadRig pl) rignum.toNat
    pure ⟨min, max, pivot, rignum, rigs, 0, [], 0, []⟩
  else do
    let nodenum ← readLong pl
    let nodes ← loadNodes pl kind nodenum
    pure ⟨min, max, pivot, 0, [], nodenum, nodes, 0, []⟩

/-- `visiblemesh.py:709-711` -/
def loadAlphamode (pl : Plat) (kind : Kind) : P (Option Int) :=
  if kind.isSkinned then pure none
  else do
    let v ← readLong pl
    pure (some v)

/-- `visiblemesh.py:708-741` -/
def loadMat (pl : Plat) (version : Int) (kind : Kind) : P (Mat F) := do
  let alphamode ← loadAlphamode pl kind
  let fxfile ← readString pl
  let technique ← readString pl
  let mapnum ← readLong pl
  let maps ← P.rep (readString pl) mapnum.toNat
  let vstart ← readLong pl
  let istart ← readLong pl
  let inum ← readLong pl
  let vnum ← readLong pl
  let u4 ← readLong pl
  let u5 ← readLong pl
  if !kind.isSkinned && version == 11 then do
    let mmin ← readFloat3 pl
    let mmax ← readFloat3 pl
    pure ⟨alphamode, fxfile, technique, mapnum, maps, vstart, istart, inum, vnum, u4, u5,
      some mmin, some mmax⟩
  else
    pure ⟨alphamode, fxfile, technique, mapnum, maps, vstart, istart, inum, vnum, u4, u5,
      none, none⟩

/-- `visiblemesh.py:893-899` -/
def loadLodMaterials (pl : Plat) (version : Int) (kind : Kind) (lod : Lod F) : P (Lod F) := do
  let matnum ← readLong pl
  let materials ← P.rep (loadMat pl version kind) matnum.toNat
  pure { lod with matnum := matnum, materials := materials }

/-- `visiblemesh.py:186-190` for one geom whose table entry (`visiblemesh.py:775-777`) said
`lodnum`. -/
def loadGeomNodes (pl : Plat) (version : Int) (kind : Kind) (lodnum : Int) : P (Geom F) := do
  let lods ← P.rep (loadLodNodes pl version kind) lodnum.toNat
  pure ⟨lodnum, lods⟩

/-- `visiblemesh.py:195-199` for one geom. -/
def loadGeomMaterials (pl : Plat) (version : Int) (kind : Kind) (geom : Geom F) : P (Geom F) := do
  let lods ← P.each (loadLodMaterials pl version kind) geom.lods
  pure { geom with lods := lods }

/-- `visiblemesh.py:179-182`; the constructor left 0 in `u2` (line 65). -/
def loadU2 (pl : Plat) (kind : Kind) : P Int :=
  if kind.isSkinned then pure 0 else readLong pl

/-- `visiblemesh.py:95-110`, the calls in order. -/
def loadBody (pl : Plat) (kind : Kind) : P (Mesh F) := do
  let head ← loadHead pl
  let u1 ← readByte
  let geomnum ← readLong pl
  let lodnums ← P.rep (readLong pl) geomnum.toNat
  let vertattribnum ← readLong pl
  let vattrs ← P.rep (loadVAttr pl) vertattribnum.toNat
  let vertformat ← readLong pl
  let vertstride ← readLong pl
  let vertnum ← readLong pl
  let vertices ← loadVertices pl vertstride vertformat vertnum
  let indexnum ← readLong pl
  let index ← readShort pl indexnum
  let u2 ← loadU2 pl kind
  let geoms0 ← P.each (loadGeomNodes pl head.version kind) lodnums
  let geoms ← P.each (loadGeomMaterials pl head.version kind) geoms0
  pure { kind, head, u1, geomnum, geoms, vertattribnum, vattrs, vertformat, vertstride, vertnum,
         vertices, indexnum, index, u2 }

/-- `visiblemesh.py:95-117`: `tell() == st_size` says that no byte is left (the file does not
change while it is read). -/
def load (pl : Plat) (kind : Kind) (file : Bytes) : Except Err (Mesh F) :=
  match loadBody pl kind file with
  | .error e => .error e
  | .ok (m, []) => .ok m
  | .ok (_, _ :: _) => .error .attributeError

/-! ## Exporting -/

/-- `visiblemesh.py:621-626` -/
def exportHead (pl : Plat) (h : Head) : Out :=
  .all [writeLong pl h.u1, writeLong pl h.version, writeLong pl h.u3, writeLong pl h.u4,
    writeLong pl h.u5]

/-- `visiblemesh.py:969-973` -/
def exportVAttr (pl : Plat) (a : VAttr) : Out :=
  .all [writeShort pl a.flag, writeShort pl a.offset, writeShort pl a.vartype,
    writeShort pl a.usage]

/-- `write_float3(fo, *v)`: unpacking `None` is a `TypeError`. -/
def writeFloat3? (pl : Plat) : Option (Vec3 F) → Out
  | some v => writeFloat3 pl v
  | none => .raise .typeError

/-- `write_long(fo, v)`: packing `None` is a `struct.error`. -/
def writeLong? (pl : Plat) : Option Int → Out
  | some v => writeLong pl v
  | none => .raise .structError

/-- The loop body of `visiblemesh.py:932-934`. -/
def exportBone (pl : Plat) (b : Bone F) : Out := .all [writeLong pl b.id, writeMatrix4 pl b.matrix]

/-- `visiblemesh.py:930-934` -/
def exportRig (pl : Plat) (r : Rig F) : Out :=
  .all [writeLong pl r.bonenum, .each (exportBone pl) r.bones]

/-- `visiblemesh.py:876-891` -/
def exportLodNodes (pl : Plat) (version : Int) (kind : Kind) (l : Lod F) : Out :=
  .all [writeFloat3 pl l.min, writeFloat3 pl l.max,
    if version ≤ 6 then writeFloat3? pl l.pivot else .nil,
    if kind.isSkinned then .all [writeLong pl l.rignum, .each (exportRig pl) l.rigs]
    else .all [writeLong pl l.nodenum,
      if kind.isBundled then .nil else .each (writeMatrix4 pl) l.nodes]]

/-- `visiblemesh.py:743-764` -/
def exportMat (pl : Plat) (version : Int) (kind : Kind) (m : Mat F) : Out :=
  .all [if kind.isSkinned then .nil else writeLong? pl m.alphamode,
    writeString pl m.fxfile, writeString pl m.technique,
    writeLong pl m.mapnum, .each (writeString pl) m.maps,
    writeLong pl m.vstart, writeLong pl m.istart, writeLong pl m.inum, writeLong pl m.vnum,
    writeLong pl m.u4, writeLong pl m.u5,
    if !kind.isSkinned && version == 11 then
      .all [writeFloat3? pl m.mmin, writeFloat3? pl m.mmax]
    else .nil]

/-- `visiblemesh.py:901-904` -/
def exportLodMaterials (pl : Plat) (version : Int) (kind : Kind) (l : Lod F) : Out :=
  .all [writeLong pl l.matnum, .each (exportMat pl version kind) l.materials]

/-- `visiblemesh.py:238-239`: iterating over an int is a `TypeError`. -/
def exportIndex (pl : Plat) : OneOrMany Int → Out
  | .one _ => .raise .typeError
  | .many l => .each (writeShort pl) l

/-- `visiblemesh.py:217-249` -/
def exportMesh (pl : Plat) (m : Mesh F) : Out :=
  .all [exportHead pl m.head, writeByte m.u1,
    writeLong pl m.geomnum, .each (fun g => writeLong pl g.lodnum) m.geoms,
    writeLong pl m.vertattribnum, .each (exportVAttr pl) m.vattrs,
    writeLong pl m.vertformat, writeLong pl m.vertstride, writeLong pl m.vertnum,
    .each (writeFloat pl) m.vertices,
    writeLong pl m.indexnum, exportIndex pl m.index,
    if m.kind.isSkinned then .nil else writeLong pl m.u2,
    .each (fun g => .each (exportLodNodes pl m.head.version m.kind) g.lods) m.geoms,
    .each (fun g => .each (exportLodMaterials pl m.head.version m.kind) g.lods) m.geoms]

end Bf2
