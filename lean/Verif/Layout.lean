import Verif.Spec

/-!
# The file layout, declaratively

A mesh file is a list of primitive items, each with a fixed byte representation.  `Mesh.items` lists
the items of a mesh in file order.  Nothing here refers to the loaders and exporters of the model.
-/

namespace Bf2

/-- A primitive entry of a file. -/
inductive Item
  /-- a C `long` -/
  | long (v : Int)
  /-- an unsigned 16-bit integer -/
  | short (v : Int)
  /-- a signed 16-bit integer -/
  | sshort (v : Int)
  /-- a signed byte -/
  | byte (v : Int)
  /-- a binary32 float, given as a word -/
  | word (w : BitVec 32)
  /-- a string: its length as a C `long`, then its bytes -/
  | text (s : Bytes)
  deriving DecidableEq, Repr

/-- The `k` bytes of `v` modulo `256 ^ k`: byte number `i` has weight `256 ^ i`; stored from weight 1
upwards, or downwards on a big-endian machine. -/
def intBytes (bigEndian : Bool) (k : Nat) (v : Int) : Bytes :=
  let bytes := (List.range k).map fun i => UInt8.ofNat (v / 256 ^ i % 256).toNat
  if bigEndian then bytes.reverse else bytes

/-- The bytes of a C `long`. -/
def longBytes (pl : Plat) (v : Int) : Bytes := intBytes pl.bigEndian (if pl.long8 then 8 else 4) v

/-- The byte representation of an item. -/
def Item.bytes (pl : Plat) : Item → Bytes
  | .long v => longBytes pl v
  | .short v => intBytes pl.bigEndian 2 v
  | .sshort v => intBytes pl.bigEndian 2 v
  | .byte v => intBytes pl.bigEndian 1 v
  | .word w => intBytes pl.bigEndian 4 w.toNat
  | .text s => longBytes pl s.length ++ s

/-- The item can be stored. -/
def Item.Fits (pl : Plat) : Item → Prop
  | .long v => IsLong pl v
  | .short v => IsShort v
  | .sshort v => -32768 ≤ v ∧ v ≤ 32767
  | .byte v => -128 ≤ v ∧ v ≤ 127
  | .word _ => True
  | .text s => IsLong pl s.length

instance (pl : Plat) (v : Int) : Decidable (IsLong pl v) := by unfold IsLong; infer_instance
instance (v : Int) : Decidable (IsShort v) := by unfold IsShort; infer_instance
instance (pl : Plat) (i : Item) : Decidable (i.Fits pl) := by
  cases i <;> unfold Item.Fits <;> infer_instance

/-- The bytes of a sequence of items. -/
def layout (pl : Plat) (items : List Item) : Bytes := items.flatMap (Item.bytes pl)

local notation "W" => BitVec 32

def Head.items (h : Head) : List Item :=
  [.long h.u1, .long h.version, .long h.u3, .long h.u4, .long h.u5]

def VAttr.items (a : VAttr) : List Item :=
  [.short a.flag, .short a.offset, .short a.vartype, .short a.usage]

def Vec3.items (v : Vec3 W) : List Item := v.floats.map .word

/-- Row by row. -/
def Mat4.items (m : Mat4 W) : List Item := m.floats.map .word

def Bone.items (b : Bone W) : List Item := .long b.id :: b.matrix.items

def Rig.items (r : Rig W) : List Item := .long r.bonenum :: r.bones.flatMap Bone.items

/-- Items of something that need not be there. -/
def optItems {α : Type} (f : α → List Item) : Option α → List Item
  | some a => f a
  | none => []

/-- First pass: bounds, the pivot if there is one, then rigs or nodes. -/
def Lod.nodeItems (k : Kind) (l : Lod W) : List Item :=
  l.min.items ++ l.max.items ++ optItems Vec3.items l.pivot ++
    if k.isSkinned then .long l.rignum :: l.rigs.flatMap Rig.items
    else .long l.nodenum :: l.nodes.flatMap Mat4.items

/-- Alpha mode if there is one, shader, technique, textures, ranges, bounds if there are some. -/
def Mat.items (m : Mat W) : List Item :=
  optItems (fun a => [.long a]) m.alphamode ++ [.text m.fxfile, .text m.technique, .long m.mapnum] ++
    m.maps.map .text ++
    [.long m.vstart, .long m.istart, .long m.inum, .long m.vnum, .long m.u4, .long m.u5] ++
    optItems Vec3.items m.mmin ++ optItems Vec3.items m.mmax

/-- Second pass. -/
def Lod.matItems (l : Lod W) : List Item := .long l.matnum :: l.materials.flatMap Mat.items

/-- Everything before the vertex block. -/
def Preamble.items (p : Preamble) : List Item :=
  p.head.items ++ [.byte p.u1, .long p.geomnum] ++ p.lodnums.map .long ++
    [.long p.vertattribnum] ++ p.vattrs.flatMap VAttr.items ++
    [.long p.vertformat, .long p.vertstride, .long p.vertnum]

/-- What the mesh says before its vertex block. -/
def Mesh.preamble {F : Type} (m : Mesh F) : Preamble :=
  ⟨m.head, m.u1, m.geomnum, m.geoms.map (·.lodnum), m.vertattribnum, m.vattrs, m.vertformat,
    m.vertstride, m.vertnum⟩

/-- The items of a mesh file: header, geom table, vertex attribute table, vertex block, index block,
`u2` unless skinned, then for every geom and lod its nodes, then for every geom and lod its
materials. -/
def Mesh.items (m : Mesh W) : List Item :=
  m.preamble.items ++ m.vertices.map .word ++
    [.long m.indexnum] ++ m.index.elems.map .short ++
    (if m.kind.isSkinned then [] else [.long m.u2]) ++
    m.geoms.flatMap (fun g => g.lods.flatMap (Lod.nodeItems m.kind)) ++
    m.geoms.flatMap (fun g => g.lods.flatMap Lod.matItems)

/-- `bs` is the file up to the vertex block, for that content. -/
def Preamble.Bytes (pl : Plat) (p : Preamble) (bs : Bytes) : Prop :=
  p.lodnums.length = p.geomnum.toNat ∧ p.vattrs.length = p.vertattribnum.toNat ∧
    (∀ i ∈ p.items, i.Fits pl) ∧ bs = layout pl p.items

end Bf2
