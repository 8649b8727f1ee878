import Verif.Mesh

/-!
# Specification vocabulary

Small definitions the property statements use.  Nothing here refers to the functions of the model
(loaders, exporters, edit operations); only to its data types.
-/

namespace Bf2

/-! ## Binary32 words -/

/-- A signalling NaN: exponent field (bits 23 to 30) all ones, quiet bit (bit 22) clear, other
fraction bits not all zero. -/
def SNaN (w : BitVec 32) : Prop :=
  w.extractLsb 30 23 = 255#8 ∧ w.getLsbD 22 = false ∧ w.extractLsb 21 0 ≠ 0#22

instance (w : BitVec 32) : Decidable (SNaN w) := by unfold SNaN; infer_instance

/-- The word with its quiet bit set if it was a signalling NaN. -/
def quieted (w : BitVec 32) : BitVec 32 := if SNaN w then w ||| 0x00400000#32 else w

/-- Exponent field all ones: infinities and NaNs. -/
def Special32 (w : BitVec 32) : Prop := w.extractLsb 30 23 = 255#8

instance (w : BitVec 32) : Decidable (Special32 w) := by unfold Special32; infer_instance

/-- Value of a finite binary32 word (IEEE 754-2008, section 3.4). -/
def val32 (w : BitVec 32) : ℚ :=
  let e : ℕ := (w.extractLsb 30 23).toNat
  let f : ℕ := (w.extractLsb 22 0).toNat
  (if w.msb then -1 else 1) *
    (if e = 0 then (f : ℚ) * 2 ^ (-149 : ℤ) else (2 ^ 23 + f : ℚ) * 2 ^ ((e : ℤ) - 150))

/-- Value of a finite double (IEEE 754-2008, section 3.4). -/
def F64.value (x : F64) : ℚ :=
  let e : ℕ := x.mag / 2 ^ 52
  let f : ℕ := x.mag % 2 ^ 52
  (if x.neg then -1 else 1) *
    (if e = 0 then (f : ℚ) * 2 ^ (-1074 : ℤ) else (2 ^ 52 + f : ℚ) * 2 ^ ((e : ℤ) - 1075))

/-- Number of positions at which two byte strings of the same length differ. -/
def differing (a b : Bytes) : Nat := (a.zip b).countP fun p => p.1 != p.2

/-! ## Well-formed meshes

Counts agree with the collections, and exactly the fields the kind and version call for exist. -/

variable {F : Type}

/-- Material of a mesh of the given kind and version. -/
structure MatWF (k : Kind) (version : Int) (m : Mat F) : Prop where
  alphamode : m.alphamode.isSome = !k.isSkinned
  maps : m.maps.length = m.mapnum.toNat
  mmin : m.mmin.isSome = (!k.isSkinned && version == 11)
  mmax : m.mmax.isSome = (!k.isSkinned && version == 11)

/-- Bounds, pivot, rigs and nodes of a lod. -/
structure LodNodesWF (k : Kind) (version : Int) (l : Lod F) : Prop where
  pivot : l.pivot.isSome = decide (version ≤ 6)
  rigs : l.rigs.length = l.rignum.toNat
  bones : ∀ r ∈ l.rigs, r.bones.length = r.bonenum.toNat
  no_rigs : k.isSkinned = false → l.rignum = 0
  nodes : l.nodes.length = if k.isSkinned || k.isBundled then 0 else l.nodenum.toNat
  no_nodes : k.isSkinned = true → l.nodenum = 0

/-- Materials of a lod. -/
structure LodMatsWF (k : Kind) (version : Int) (l : Lod F) : Prop where
  materials : l.materials.length = l.matnum.toNat
  each : ∀ m ∈ l.materials, MatWF k version m

/-- Geom of a mesh of the given kind and version. -/
structure GeomWF (k : Kind) (version : Int) (g : Geom F) : Prop where
  lods : g.lods.length = g.lodnum.toNat
  nodes : ∀ l ∈ g.lods, LodNodesWF k version l
  mats : ∀ l ∈ g.lods, LodMatsWF k version l

/-- The vertex array length `vertstride`, `vertformat` and `vertnum` announce, computed in doubles
as the code does (see C52 for when this is the exact quotient and product). -/
def Mesh.announced (m : Mesh F) : Int := intDivMul m.vertstride m.vertformat m.vertnum

/-- The index array matches its count. -/
def IndexWF (n : Int) : OneOrMany Int → Prop
  | .one _ => n = 1
  | .many l => 0 ≤ n ∧ n ≠ 1 ∧ l.length = n.toNat

/-- A mesh whose counts agree with its collections. -/
structure MeshWF (m : Mesh F) : Prop where
  geoms : m.geoms.length = m.geomnum.toNat
  geom : ∀ g ∈ m.geoms, GeomWF m.kind m.head.version g
  vattrs : m.vattrs.length = m.vertattribnum.toNat
  vertformat : m.vertformat ≠ 0
  vertices : (m.vertices.length : Int) = m.announced
  not_one : m.vertices.length ≠ 1
  index : IndexWF m.indexnum m.index
  u2 : m.kind.isSkinned = true → m.u2 = 0

/-! ## The floats of a mesh

`Mesh.floats` lists every float the mesh holds, `Mesh.map` replaces each of them. -/

section
variable {G : Type}

def Vec3.map (f : F → G) (v : Vec3 F) : Vec3 G := ⟨f v.x, f v.y, f v.z⟩
def Vec4.map (f : F → G) (v : Vec4 F) : Vec4 G := ⟨f v.x, f v.y, f v.z, f v.w⟩
def Mat4.map (f : F → G) (m : Mat4 F) : Mat4 G := ⟨m.r0.map f, m.r1.map f, m.r2.map f, m.r3.map f⟩

def Mat.map (f : F → G) (m : Mat F) : Mat G :=
  ⟨m.alphamode, m.fxfile, m.technique, m.mapnum, m.maps, m.vstart, m.istart, m.inum, m.vnum, m.u4,
    m.u5, m.mmin.map (Vec3.map f), m.mmax.map (Vec3.map f)⟩

def Bone.map (f : F → G) (b : Bone F) : Bone G := ⟨b.id, b.matrix.map f⟩
def Rig.map (f : F → G) (r : Rig F) : Rig G := ⟨r.bonenum, r.bones.map (Bone.map f)⟩

def Lod.map (f : F → G) (l : Lod F) : Lod G :=
  ⟨l.min.map f, l.max.map f, l.pivot.map (Vec3.map f), l.rignum, l.rigs.map (Rig.map f),
    l.nodenum, l.nodes.map (Mat4.map f), l.matnum, l.materials.map (Mat.map f)⟩

def Geom.map (f : F → G) (g : Geom F) : Geom G := ⟨g.lodnum, g.lods.map (Lod.map f)⟩

/-- Every float of the mesh replaced by its image. -/
def Mesh.map (f : F → G) (m : Mesh F) : Mesh G :=
  ⟨m.kind, m.head, m.u1, m.geomnum, m.geoms.map (Geom.map f), m.vertattribnum, m.vattrs,
    m.vertformat, m.vertstride, m.vertnum, m.vertices.map f, m.indexnum, m.index, m.u2⟩

end

def Vec3.floats (v : Vec3 F) : List F := [v.x, v.y, v.z]
def Vec4.floats (v : Vec4 F) : List F := [v.x, v.y, v.z, v.w]
def Mat4.floats (m : Mat4 F) : List F := m.r0.floats ++ m.r1.floats ++ m.r2.floats ++ m.r3.floats

/-- Floats of an optional vector. -/
def optFloats : Option (Vec3 F) → List F
  | some v => v.floats
  | none => []

def Mat.floats (m : Mat F) : List F := optFloats m.mmin ++ optFloats m.mmax

/-- Floats of a lod apart from its materials: bounds, pivot, bone and node matrices. -/
def Lod.nodeFloats (l : Lod F) : List F :=
  l.min.floats ++ l.max.floats ++ optFloats l.pivot
    ++ l.rigs.flatMap (fun r => r.bones.flatMap fun b => b.matrix.floats)
    ++ l.nodes.flatMap Mat4.floats

/-- Every float of the mesh, in file order. -/
def Mesh.floats (m : Mesh F) : List F :=
  m.vertices
    ++ m.geoms.flatMap (fun g => g.lods.flatMap Lod.nodeFloats)
    ++ m.geoms.flatMap (fun g => g.lods.flatMap fun l => l.materials.flatMap Mat.floats)

/-! ## Integer ranges -/

/-- Fits the platform's C `long`. -/
def IsLong (pl : Plat) (v : Int) : Prop :=
  if pl.long8 then -9223372036854775808 ≤ v ∧ v ≤ 9223372036854775807
  else -2147483648 ≤ v ∧ v ≤ 2147483647

/-- Fits an unsigned 16-bit field. -/
def IsShort (v : Int) : Prop := 0 ≤ v ∧ v ≤ 65535

structure MatInRange (pl : Plat) (m : Mat F) : Prop where
  alphamode : ∀ v ∈ m.alphamode, IsLong pl v
  fxfile : IsLong pl m.fxfile.length
  technique : IsLong pl m.technique.length
  mapnum : IsLong pl m.mapnum
  maps : ∀ s ∈ m.maps, IsLong pl (List.length s)
  vstart : IsLong pl m.vstart
  istart : IsLong pl m.istart
  inum : IsLong pl m.inum
  vnum : IsLong pl m.vnum
  u4 : IsLong pl m.u4
  u5 : IsLong pl m.u5

structure LodInRange (pl : Plat) (l : Lod F) : Prop where
  rignum : IsLong pl l.rignum
  bonenum : ∀ r ∈ l.rigs, IsLong pl r.bonenum
  boneid : ∀ r ∈ l.rigs, ∀ b ∈ r.bones, IsLong pl b.id
  nodenum : IsLong pl l.nodenum
  matnum : IsLong pl l.matnum
  mats : ∀ m ∈ l.materials, MatInRange pl m

/-- The elements of an index array. -/
def OneOrMany.elems {α : Type} : OneOrMany α → List α
  | .one a => [a]
  | .many l => l

/-- Every integer of the mesh fits the field it is stored in. -/
structure InRange (pl : Plat) (m : Mesh F) : Prop where
  head_u1 : IsLong pl m.head.u1
  version : IsLong pl m.head.version
  head_u3 : IsLong pl m.head.u3
  head_u4 : IsLong pl m.head.u4
  head_u5 : IsLong pl m.head.u5
  u1 : -128 ≤ m.u1 ∧ m.u1 ≤ 127
  geomnum : IsLong pl m.geomnum
  lodnum : ∀ g ∈ m.geoms, IsLong pl g.lodnum
  vertattribnum : IsLong pl m.vertattribnum
  vattrs : ∀ a ∈ m.vattrs, IsShort a.flag ∧ IsShort a.offset ∧ IsShort a.vartype ∧ IsShort a.usage
  vertformat : IsLong pl m.vertformat
  vertstride : IsLong pl m.vertstride
  vertnum : IsLong pl m.vertnum
  indexnum : IsLong pl m.indexnum
  index : ∀ i ∈ m.index.elems, IsShort i
  u2 : IsLong pl m.u2
  lods : ∀ g ∈ m.geoms, ∀ l ∈ g.lods, LodInRange pl l

/-! ## File layout up to the vertex block -/

/-- What a file says before its vertex block. -/
structure Preamble where
  head : Head
  u1 : Int
  geomnum : Int
  lodnums : List Int
  vertattribnum : Int
  vattrs : List VAttr
  vertformat : Int
  vertstride : Int
  vertnum : Int

end Bf2
