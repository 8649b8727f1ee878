import Verif.OldMesh

/-!
# The readers and writers of single parts in the deprecated module

`deprecated/modmesh.py:797-930` and `935-1095`: each `_read_x` calls the one before it and reads one part
more, each `_write_x` calls the one before it, opens the file again and appends one part more.
-/

namespace Bf2

/-- A `VisMesh` object while it is read, `modmesh.py:558-586`.  `head` is `none` while its fields are
`None`.  Before `_read_nodes` the lods of a geom are fresh objects, here only counted by `lodnums`;
`geoms` is filled by `_read_nodes`. -/
structure OldPart (F : Type) where
  head : Option Head
  u1 : Int
  geomnum : Int
  lodnums : List Int
  vertattribnum : Int
  vattrs : List VAttr
  vertformat : Int
  vertstride : Int
  vertnum : Int
  vertices : List F
  indexnum : Int
  index : List Int
  u2 : Int
  geoms : List (OldGeom F)
  deriving DecidableEq, Repr

/-- `VisMesh()` -/
def OldPart.fresh {F : Type} : OldPart F := ⟨none, 0, 0, [], 0, [], 4, 0, 0, [], 0, [], 0, []⟩

/-- `self.head.version` -/
def OldPart.version {F : Type} (p : OldPart F) : Int := p.head.elim 0 Head.version

variable {F : Type} [FCodec F]

/-! ## Reading -/

/-- `_read_head`, `modmesh.py:797-801` -/
def readHeadPart (pl : Plat) : P (OldPart F) := do
  let head ← loadHead pl
  pure { OldPart.fresh with head := some head }

/-- `_read_u1_bfp4f_version`, `modmesh.py:803-806` -/
def readU1Part (pl : Plat) : P (OldPart F) := do
  let p ← readHeadPart pl
  let u1 ← readByte
  pure { p with u1 }

/-- `_read_geomnum`, `modmesh.py:808-811` -/
def readGeomnumPart (pl : Plat) : P (OldPart F) := do
  let p ← readU1Part pl
  let geomnum ← readLong pl
  pure { p with geomnum }

/-- `_read_geom_table`, `modmesh.py:813-818` -/
def readGeomTablePart (pl : Plat) : P (OldPart F) := do
  let p ← readGeomnumPart pl
  let lodnums ← P.rep (readLong pl) p.geomnum.toNat
  pure { p with lodnums }

/-- `_read_vertattribnum`, `modmesh.py:820-824` -/
def readVattrnumPart (pl : Plat) : P (OldPart F) := do
  let p ← readGeomTablePart pl
  let vertattribnum ← readLong pl
  pure { p with vertattribnum }

/-- `_read_vertattrib_table`, `modmesh.py:826-832` -/
def readVattrsPart (pl : Plat) : P (OldPart F) := do
  let p ← readVattrnumPart pl
  let vattrs ← P.rep (oldLoadVAttr pl) p.vertattribnum.toNat
  pure { p with vattrs }

/-- `_read_vertformat`, `modmesh.py:834-837` -/
def readVertformatPart (pl : Plat) : P (OldPart F) := do
  let p ← readVattrsPart pl
  let vertformat ← readLong pl
  pure { p with vertformat }

/-- `_read_vertstride`, `modmesh.py:839-843` -/
def readVertstridePart (pl : Plat) : P (OldPart F) := do
  let p ← readVertformatPart pl
  let vertstride ← readLong pl
  pure { p with vertstride }

/-- `_read_vertnum`, `modmesh.py:845-849` -/
def readVertnumPart (pl : Plat) : P (OldPart F) := do
  let p ← readVertstridePart pl
  let vertnum ← readLong pl
  pure { p with vertnum }

/-- `_read_vertex_block`, `modmesh.py:851-864` -/
def readVerticesPart (pl : Plat) : P (OldPart F) := do
  let p ← readVertnumPart pl
  let vertices ← oldLoadVertices pl p.vertstride p.vertformat p.vertnum
  pure { p with vertices }

/-- `_read_indexnum`, `modmesh.py:866-871` -/
def readIndexnumPart (pl : Plat) : P (OldPart F) := do
  let p ← readVerticesPart pl
  let indexnum ← readLong pl
  pure { p with indexnum }

/-- `_read_index_block`, `modmesh.py:873-881` -/
def readIndexPart (pl : Plat) : P (OldPart F) := do
  let p ← readIndexnumPart pl
  let index ← readTuple (readShort1 pl) p.indexnum
  pure { p with index }

/-- `_read_u2`, `modmesh.py:883-887`; `kind` are the flags of the object. -/
def readU2Part (pl : Plat) (kind : Kind) : P (OldPart F) := do
  let p ← readIndexPart pl
  let u2 ← loadU2 pl kind
  pure { p with u2 }

/-- `_read_nodes`, `modmesh.py:889-916` -/
def readNodesPart (pl : Plat) (kind : Kind) : P (OldPart F) := do
  let p ← readU2Part pl kind
  let geoms ← P.each (oldLoadGeomNodes pl p.version kind) p.lodnums
  pure { p with geoms }

/-- `_read_materials`, `modmesh.py:918-927` -/
def readMaterialsPart (pl : Plat) (kind : Kind) : P (OldPart F) := do
  let p ← readNodesPart pl kind
  let (_, geoms) ← P.scan (oldLoadGeomMaterials pl p.version kind) none p.geoms
  pure { p with geoms }

/-- The readers by number: the `n`th reads `n` parts. -/
def readParts (pl : Plat) (kind : Kind) : Nat → P (OldPart F)
  | 0 => pure OldPart.fresh
  | 1 => readHeadPart pl
  | 2 => readU1Part pl
  | 3 => readGeomnumPart pl
  | 4 => readGeomTablePart pl
  | 5 => readVattrnumPart pl
  | 6 => readVattrsPart pl
  | 7 => readVertformatPart pl
  | 8 => readVertstridePart pl
  | 9 => readVertnumPart pl
  | 10 => readVerticesPart pl
  | 11 => readIndexnumPart pl
  | 12 => readIndexPart pl
  | 13 => readU2Part pl kind
  | 14 => readNodesPart pl kind
  | _ => readMaterialsPart pl kind

/-! ## Writing -/

/-- `with open(p, 'ab+') as fo: out` -/
def FS.append (fs : FS) (p : Str) (out : Out) : FS × Option Err :=
  match fs.resolve p with
  | .error e => (fs, some e)
  | .ok l =>
    match fs.node l with
    | some .dir => (fs, some .isADirectoryError)
    | some (.file b) => (fs.set l (.file (b ++ out.bytes)), out.err)
    | none => (fs.set l (.file out.bytes), out.err)

/-- A call of one writer, and then the file opened again to append. -/
def thenAppend (before : FS × Option Err) (path : Str) (out : Out) : FS × Option Err :=
  match before with
  | (fs, some e) => (fs, some e)
  | (fs, none) => fs.append path out

/-- `_write_header`, `modmesh.py:935-946` -/
def writeHeaderPart (pl : Plat) (fs : FS) (m : OldMesh F) (path : Str) : FS × Option Err :=
  match fs.ensureDir path with
  | (fs1, some e) => (fs1, some e)
  | (fs1, none) =>
    match fs1.openWrite path with
    | .error e => (fs1, some e)
    | .ok (fs2, loc) =>
      let out := oldWriteHead pl m.head
      (fs2.set loc (.file out.bytes), out.err)

/-- `_write_u1_bfp4f_version`, `modmesh.py:948-953` -/
def writeU1Part (pl : Plat) (fs : FS) (m : OldMesh F) (path : Str) : FS × Option Err :=
  thenAppend (writeHeaderPart pl fs m path) path (writeByte m.u1)

/-- `_write_geomnum`, `modmesh.py:955-960` -/
def writeGeomnumPart (pl : Plat) (fs : FS) (m : OldMesh F) (path : Str) : FS × Option Err :=
  thenAppend (writeU1Part pl fs m path) path (writeLong pl m.geomnum)

/-- `_write_geom_table`, `modmesh.py:962-968` -/
def writeGeomTablePart (pl : Plat) (fs : FS) (m : OldMesh F) (path : Str) : FS × Option Err :=
  thenAppend (writeGeomnumPart pl fs m path) path (.table (fun g => writeLong pl g.lodnum) m.geoms m.geomnum)

/-- `_write_vertattribnum`, `modmesh.py:970-975` -/
def writeVattrnumPart (pl : Plat) (fs : FS) (m : OldMesh F) (path : Str) : FS × Option Err :=
  thenAppend (writeGeomTablePart pl fs m path) path (writeLong pl m.vertattribnum)

/-- `_write_vertattrib_table`, `modmesh.py:977-987` -/
def writeVattrsPart (pl : Plat) (fs : FS) (m : OldMesh F) (path : Str) : FS × Option Err :=
  thenAppend (writeVattrnumPart pl fs m path) path (.table (oldWriteVAttr pl) m.vattrs m.vertattribnum)

/-- `_write_vertformat`, `modmesh.py:989-994` -/
def writeVertformatPart (pl : Plat) (fs : FS) (m : OldMesh F) (path : Str) : FS × Option Err :=
  thenAppend (writeVattrsPart pl fs m path) path (writeLong pl m.vertformat)

/-- `_write_vertstride`, `modmesh.py:996-1001` -/
def writeVertstridePart (pl : Plat) (fs : FS) (m : OldMesh F) (path : Str) : FS × Option Err :=
  thenAppend (writeVertformatPart pl fs m path) path (writeLong pl m.vertstride)

/-- `_write_vertnum`, `modmesh.py:1003-1008` -/
def writeVertnumPart (pl : Plat) (fs : FS) (m : OldMesh F) (path : Str) : FS × Option Err :=
  thenAppend (writeVertstridePart pl fs m path) path (writeLong pl m.vertnum)

/-- `_write_vertex_block`, `modmesh.py:1010-1016` -/
def writeVerticesPart (pl : Plat) (fs : FS) (m : OldMesh F) (path : Str) : FS × Option Err :=
  thenAppend (writeVertnumPart pl fs m path) path (packFloats pl m.vertices)

/-- `_write_indexnum`, `modmesh.py:1018-1023` -/
def writeIndexnumPart (pl : Plat) (fs : FS) (m : OldMesh F) (path : Str) : FS × Option Err :=
  thenAppend (writeVerticesPart pl fs m path) path (writeLong pl m.indexnum)

/-- `_write_index_block`, `modmesh.py:1025-1030` -/
def writeIndexPart (pl : Plat) (fs : FS) (m : OldMesh F) (path : Str) : FS × Option Err :=
  thenAppend (writeIndexnumPart pl fs m path) path (packShorts pl m.index)

/-- `_write_u2`, `modmesh.py:1032-1038`: for a skinned mesh the file is not opened again. -/
def writeU2Part (pl : Plat) (fs : FS) (m : OldMesh F) (path : Str) : FS × Option Err :=
  if m.kind.isSkinned then writeIndexPart pl fs m path
  else thenAppend (writeIndexPart pl fs m path) path (writeLong pl m.u2)

/-- `_write_nodes`, `modmesh.py:1040-1064` -/
def writeNodesPart (pl : Plat) (fs : FS) (m : OldMesh F) (path : Str) : FS × Option Err :=
  thenAppend (writeU2Part pl fs m path) path
    (.each (fun g => .each (oldWriteLodNodes pl m.head.version m.kind) g.lods) m.geoms)

/-- `_write_materials`, `modmesh.py:1066-1095` -/
def writeMaterialsPart (pl : Plat) (fs : FS) (m : OldMesh F) (path : Str) : FS × Option Err :=
  thenAppend (writeNodesPart pl fs m path) path
    (.each (fun g => .each (oldWriteLodMaterials pl m.head.version m.kind) g.lods) m.geoms)

/-- The writers by number. -/
def writeParts (pl : Plat) (fs : FS) (m : OldMesh F) (path : Str) : Nat → FS × Option Err
  | 0 => (fs, none)
  | 1 => writeHeaderPart pl fs m path
  | 2 => writeU1Part pl fs m path
  | 3 => writeGeomnumPart pl fs m path
  | 4 => writeGeomTablePart pl fs m path
  | 5 => writeVattrnumPart pl fs m path
  | 6 => writeVattrsPart pl fs m path
  | 7 => writeVertformatPart pl fs m path
  | 8 => writeVertstridePart pl fs m path
  | 9 => writeVertnumPart pl fs m path
  | 10 => writeVerticesPart pl fs m path
  | 11 => writeIndexnumPart pl fs m path
  | 12 => writeIndexPart pl fs m path
  | 13 => writeU2Part pl fs m path
  | 14 => writeNodesPart pl fs m path
  | _ => writeMaterialsPart pl fs m path

end Bf2
