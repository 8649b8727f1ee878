import Verif.OldReadTests
import Verif.OldStagesSpec
import Verif.Spec

/-! # What the tests that only read say about a loaded mesh (C168) -/

namespace Bf2

/-- The lod of the first geom that comes first. -/
def FirstLod {F : Type} (o : OldMesh F) (l : OldLod F) : Prop := ∃ g, o.geoms.head? = some g ∧ g.lods.head? = some l

/-- The vector with these components, which are finite. -/
def Vec3.Is (v : Vec3 F64) (x y z : ℚ) : Prop :=
  (v.x.isFin = true ∧ v.x.value = x) ∧ (v.y.isFin = true ∧ v.y.value = y) ∧ (v.z.isFin = true ∧ v.z.value = z)

/-- How many numbers a type has in the table of `D3DDECLTYPE`, which lacks `FLOAT4`. -/
inductive TypeLen : Int → Nat → Prop
  | float1 : TypeLen 0 1
  | float2 : TypeLen 1 2
  | float3 : TypeLen 2 3
  | color : TypeLen 4 1
  | ubyte4 : TypeLen 5 3
  | unused : TypeLen 17 0

/-- Position, normal, blend indices, four texture coordinates and tangent, one after the other, and the end. -/
def readTable : List VAttr :=
  [⟨0, 0, 2, 0⟩, ⟨0, 12, 2, 3⟩, ⟨0, 24, 4, 2⟩, ⟨0, 28, 1, 5⟩, ⟨0, 36, 1, 261⟩, ⟨0, 44, 1, 517⟩, ⟨0, 52, 1, 773⟩,
    ⟨0, 60, 2, 6⟩, ⟨255, 0, 17, 0⟩]

/-- The material of the box. -/
structure BoxMaterial (m : Mat F64) : Prop where
  alphamode : m.alphamode = some 0
  fxfile : m.fxfile = ascii "StaticMesh.fx"
  technique : m.technique = ascii "Base"
  mapnum : m.mapnum = 2
  maps : [ascii "objects/staticobjects/test/evil_box/textures/evil_box_c.dds",
    ascii "Common\\Textures\\SpecularLUT_pow36.dds"] <+: m.maps
  vstart : m.vstart = 0
  istart : m.istart = 0
  inum : m.inum = 36
  vnum : m.vnum = 25
  u4 : m.u4 = 8064
  u5 : m.u5 = 65535
  mmin : ∃ v, m.mmin = some v ∧ v.Is (-1 / 2) 0 (-1 / 2)
  mmax : ∃ v, m.mmax = some v ∧ v.Is (1 / 2) 1 (1 / 2)

/-- What a test says. -/
def ReadTest.Says (o : OldMesh F64) : ReadTest → Prop
  | header => o.head.u1 = 0 ∧ (o.head.version = 6 ∨ o.head.version = 10 ∨ o.head.version = 11) ∧ o.head.u3 = 0 ∧
      o.head.u4 = 0 ∧ o.head.u5 = 0
  | u1 => o.u1 = 0
  | geomnum => o.geomnum = 1
  | geomnumDest => o.geomnum = 2
  | table => o.geomnum = 1 ∧ o.geoms.map (·.lodnum) = [1]
  | tableDest => o.geomnum = 2 ∧ o.geoms.map (·.lodnum) = [2, 2]
  | vertattribnum => o.vertattribnum = 9
  | vattrs => readTable <+: o.vattrs ∧ o.vattrs.length = o.vertattribnum
  | vertformat => o.vertformat = 4
  | vertstride => ∃ ns, List.Forall₂ (fun a n => TypeLen a.vartype n) o.vattrs ns ∧ o.vertstride = 4 * (ns.sum : Nat)
  | vertnum => o.vertnum = 25
  | vertices => o.vertices.length * o.vertformat = o.vertnum * o.vertstride
  | indexnum => o.indexnum = 36
  | index => o.index.length = 36 ∧ o.indexnum = 36
  | u2 => o.u2 = 8
  | nodes => ∃ l, FirstLod o l ∧ l.min.Is (-1 / 2) 0 (-1 / 2) ∧ l.max.Is (1 / 2) 1 (1 / 2) ∧ l.nodenum = some 1
  | nodesBundled => ∃ l, FirstLod o l ∧ l.nodenum = some 1
  | nodesSkinned => ∀ g ∈ o.geoms, ∀ l ∈ g.lods, l.rignum = some 1
  | materials => ∃ l m, FirstLod o l ∧ l.matnum = 1 ∧ l.materials = [m] ∧ BoxMaterial m
  | materialsSkinned => ∀ g ∈ o.geoms, ∀ l ∈ g.lods, ∀ m ∈ l.materials,
      m.maps.head? = some (ascii "objects/kits/mec/textures/mec_kits_c.dds")

/-- The tests of the static sample. -/
def ReadTest.ofBox : List ReadTest :=
  [header, u1, geomnum, table, vertattribnum, vattrs, vertformat, vertstride, vertnum, vertices, indexnum, index, u2,
    nodes, materials]

/-- What the test of the collision sample says; the size is that of the file. -/
structure BoxCollision (m : ColMesh F64 ColFace) : Prop where
  geomnum : m.geomnum = 1
  lods : ∃ a b c, m.geoms = [⟨1, [⟨3, [a, b, c]⟩]⟩] ∧ a.coltype = 0 ∧ a.facenum = 12 ∧ a.u7 = 49 ∧ a.ynum = 3 ∧
    a.znum = 12 ∧ a.anum = 36

end Bf2
