import Verif.Edit
import Verif.Spec
import Mathlib.Data.List.Forall2

/-!
# Specification vocabulary for the editing methods

Nothing here refers to the functions of `Verif/Edit.lean`, only to the data types and to the
arithmetic operations `FArith`.
-/

namespace Bf2

variable {F : Type}

/-! ## Vertex layout -/

/-- Floats per value of a Direct3D vertex type the package knows: FLOAT1 to FLOAT4, D3DCOLOR,
UNUSED. -/
def typeFloats : Int → Option Nat
  | 0 => some 1
  | 1 => some 2
  | 2 => some 3
  | 3 => some 4
  | 4 => some 1
  | 17 => some 0
  | _ => none

/-- A vertex with these attributes is `n` floats long: the types of the attributes with flag 0
(used) are known and their sizes add up to `n`. -/
def VertexSize (attrs : List VAttr) (n : Nat) : Prop :=
  ∃ lens : List Nat,
    (attrs.filter fun a => a.flag == 0).map (fun a => typeFloats a.vartype) = lens.map some ∧
    lens.sum = n

/-- The usages of `D3DDECLUSAGE`. -/
def KnownUsage (u : Int) : Prop := (0 ≤ u ∧ u ≤ 13) ∨ u ∈ [261, 517, 773, 1029]

/-- `a` is the first attribute that is a position and not marked unused. -/
def FirstPosition (attrs : List VAttr) (a : VAttr) : Prop :=
  ∃ pre post, attrs = pre ++ a :: post ∧ (a.usage = 0 ∧ a.flag ≠ 255) ∧
    ∀ b ∈ pre, ¬ (b.usage = 0 ∧ b.flag ≠ 255)

/-- The attribute starts at float `o` of a vertex (`offset` counts in bytes, `vertformat` is the
size of a float). -/
def StartsAt (vertformat : Int) (a : VAttr) (o : Nat) : Prop :=
  vertformat ≠ 0 ∧ a.offset = vertformat * o ∧ o ≤ 65535

instance (vf : Int) (a : VAttr) (o : Nat) : Decidable (StartsAt vf a o) := by
  unfold StartsAt; infer_instance

/-! ## Materials and their data -/

/-- Materials of a geom in file order. -/
def Geom.mats (g : Geom F) : List (Mat F) := g.lods.flatMap Lod.materials

/-- Materials of a mesh in file order. -/
def Mesh.mats (m : Mesh F) : List (Mat F) := m.geoms.flatMap Geom.mats

/-- `num` elements of a list from `start` on. -/
def block {α : Type} (l : List α) (start num : Int) : List α := (l.drop start.toNat).take num.toNat

/-- Vertex data of a material, vertices being `vs` floats long. -/
def vertexData (vs : Nat) (m : Mesh F) (a : Mat F) : List F :=
  block m.vertices (a.vstart * vs) (a.vnum * vs)

/-- Indices of a material. -/
def indexData (m : Mesh F) (a : Mat F) : List Int := block m.index.elems a.istart a.inum

/-- The vertices of a material lie inside the vertex array. -/
def VertsInside (vs : Nat) (m : Mesh F) (a : Mat F) : Prop :=
  0 ≤ a.vstart ∧ 0 ≤ a.vnum ∧ (a.vstart + a.vnum) * vs ≤ m.vertices.length

/-- The indices of a material lie inside the index array. -/
def IndexInside (m : Mesh F) (a : Mat F) : Prop :=
  0 ≤ a.istart ∧ 0 ≤ a.inum ∧ a.istart + a.inum ≤ m.index.elems.length

instance (vs : Nat) (m : Mesh F) (a : Mat F) : Decidable (VertsInside vs m a) := by
  unfold VertsInside; infer_instance

instance (m : Mesh F) (a : Mat F) : Decidable (IndexInside m a) := by
  unfold IndexInside; infer_instance

/-- Every material's data lies inside the arrays. -/
structure Inside (vs : Nat) (m : Mesh F) : Prop where
  pos : 0 < vs
  size : VertexSize m.vattrs vs
  verts : ∀ a ∈ m.mats, VertsInside vs m a
  index : ∀ a ∈ m.mats, IndexInside m a

/-- Materials in file order tile the vertex array: each starts where the one before ends, and
together they fill the array. -/
structure TiledVerts (vs : Nat) (m : Mesh F) : Prop where
  pos : 0 < vs
  size : VertexSize m.vattrs vs
  nonneg : ∀ a ∈ m.mats, 0 ≤ a.vnum
  start : ∀ (i : Nat) (a : Mat F), m.mats[i]? = some a →
    a.vstart = ((m.mats.take i).map Mat.vnum).sum
  total : (m.vertices.length : Int) = (m.mats.map Mat.vnum).sum * vs

/-- Materials in file order tile the index array. -/
structure TiledIndex (m : Mesh F) : Prop where
  nonneg : ∀ a ∈ m.mats, 0 ≤ a.inum
  start : ∀ (i : Nat) (a : Mat F), m.mats[i]? = some a →
    a.istart = ((m.mats.take i).map Mat.inum).sum
  total : (m.index.elems.length : Int) = (m.mats.map Mat.inum).sum

/-- A geom without the contents of its materials: what stays when only materials change.  Each lod
keeps everything but its materials, of which only the number is recorded. -/
def Geom.shape (g : Geom F) : Int × List (Lod F × Nat) :=
  (g.lodnum, g.lods.map fun l => ({ l with materials := [] }, l.materials.length))

/-- Give materials consecutive ranges, starting at vertex `v` and index `i`. -/
def retile : Int → Int → List (Mat F) → List (Mat F)
  | _, _, [] => []
  | v, i, a :: as => { a with vstart := v, istart := i } :: retile (v + a.vnum) (i + a.inum) as

/-! ## Translation -/

/-- Component `c` of a vertex whose position starts at component `o`, moved by `d`. -/
def moved [FArith F] (o : Nat) (d : List F) (c : Nat) (x : F) : F :=
  if o ≤ c then
    match d[c - o]? with
    | some t => FArith.add x t
    | none => x
  else x

/-- Vertices of `vs` floats each, with positions at `o`, moved by `d`. -/
def movedAll [FArith F] (vs o : Nat) (d : List F) (l : List F) : List F :=
  l.mapIdx fun i x => moved o d (i % vs) x

/-! ## Rotation -/

/-- An attribute `rotate` is about: a position, normal or tangent not marked unused. -/
def VectorAttr (a : VAttr) : Prop := a.flag ≠ 255 ∧ (a.usage = 0 ∨ a.usage = 3 ∨ a.usage = 6)

instance (a : VAttr) : Decidable (VectorAttr a) := by unfold VectorAttr; infer_instance

/-- Every position, normal and tangent is a `FLOAT3` inside the vertex. -/
def Float3Vectors (vs : Nat) (m : Mesh F) : Prop :=
  ∀ a ∈ m.vattrs, VectorAttr a → a.vartype = 2 ∧ ∃ o, StartsAt m.vertformat a o ∧ o + 3 ≤ vs

/-- Two attributes that are not both vectors, or do not overlap as vectors of three floats. -/
def Apart (vertformat : Int) (a b : VAttr) : Prop :=
  VectorAttr a → VectorAttr b → ∀ o p, StartsAt vertformat a o → StartsAt vertformat b p →
    o + 3 ≤ p ∨ p + 3 ≤ o

/-- Three components of a list from `o` on, if they exist. -/
def vec3At (l : List F) (o : Nat) : Option (Vec3 F) :=
  match l[o]?, l[o + 1]?, l[o + 2]? with
  | some x, some y, some z => some ⟨x, y, z⟩
  | _, _, _ => none

/-! ## Reordering -/

/-- `id` is a Python index of position `j` in a list of length `n` (counted from the front, or
negative from the end). -/
def Names (n : Nat) (id : Int) (j : Nat) : Prop := j < n ∧ (id = j ∨ id = (j : Int) - n)

/-- `order` lists every geom of `n` exactly once; `js` are the positions it names. -/
structure Permutes (n : Nat) (order : List Int) (js : List Nat) : Prop where
  names : List.Forall₂ (Names n) order js
  perm : js.Perm (List.range n)

/-- `a'`, in mesh `m'`, is material `a` of mesh `m` with possibly other places for its data: same
counts, shader, textures, bounds, and the same vertex and index data. -/
structure MatKept (vs : Nat) (m m' : Mesh F) (a a' : Mat F) : Prop where
  fields : a' = { a with vstart := a'.vstart, istart := a'.istart }
  verts : vertexData vs m' a' = vertexData vs m a
  index : indexData m' a' = indexData m a

/-- `g'`, in mesh `m'`, is geom `g` of mesh `m` up to the places of its materials' data. -/
structure GeomKept (vs : Nat) (m m' : Mesh F) (g g' : Geom F) : Prop where
  shape : g'.shape = g.shape
  mats : List.Forall₂ (MatKept vs m m') g.mats g'.mats

/-! ## Merging -/

/-- What two materials must share to be merged. -/
structure MatAgree (a b : Mat F) : Prop where
  alphamode : a.alphamode = b.alphamode
  fxfile : a.fxfile = b.fxfile
  technique : a.technique = b.technique
  maps : a.maps = b.maps

/-- Two meshes with the same structure of geoms, lods and materials, materials that agree one by
one, and the same vertex attributes. -/
structure Compatible (m o : Mesh F) : Prop where
  geoms : List.Forall₂ (fun g h : Geom F =>
    List.Forall₂ (fun l k : Lod F => List.Forall₂ MatAgree l.materials k.materials) g.lods h.lods)
    m.geoms o.geoms
  vattrs : m.vattrs = o.vattrs

/-- Two meshes with the same numbers of geoms, lods and materials. -/
def SameCounts (m o : Mesh F) : Prop :=
  List.Forall₂ (fun g h : Geom F =>
    List.Forall₂ (fun l k : Lod F => l.materials.length = k.materials.length) g.lods h.lods)
    m.geoms o.geoms

/-- Some index of `o`, shifted behind the vertices of the material of `m` it is merged into, needs
more than 16 bits. -/
def Overflows (m o : Mesh F) : Prop :=
  ∃ (i : Nat) (a b : Mat F) (v : Int), m.mats[i]? = some a ∧ o.mats[i]? = some b ∧
    v ∈ indexData o b ∧ 65535 < v + a.vnum

/-- `a'` in `m'` is material `a` of `m` merged with material `b` of `o`: the vertices of `a`, then
those of `b`; the indices of `a`, then those of `b` shifted by the vertices of `a`. -/
structure MatMerged (vs : Nat) (m o m' : Mesh F) (a b a' : Mat F) : Prop where
  fields : a' = { a with
    vnum := a.vnum + b.vnum, inum := a.inum + b.inum, vstart := a'.vstart, istart := a'.istart }
  verts : vertexData vs m' a' = vertexData vs m a ++ vertexData vs o b
  index : indexData m' a' = indexData m a ++ (indexData o b).map (· + a.vnum)

/-- Vertex number `v` of the vertex data of a material. -/
def corner (vs : Nat) (l : List F) (v : Int) : List F := block l (v * vs) vs

/-! ## Bounds -/

/-- The order of floats: `x < x` is never true and `<` is transitive (true of all floats, NaNs
included). -/
class LawfulLt (F : Type) [FArith F] : Prop where
  irrefl : ∀ x : F, FArith.lt x x = false
  trans : ∀ x y z : F, FArith.lt x y = true → FArith.lt y z = true → FArith.lt x z = true

/-- `a` is the last attribute that is a position and not marked unused. -/
def LastPosition (attrs : List VAttr) (a : VAttr) : Prop :=
  ∃ pre post, attrs = pre ++ a :: post ∧ (a.usage = 0 ∧ a.flag ≠ 255) ∧
    ∀ b ∈ post, ¬ (b.usage = 0 ∧ b.flag ≠ 255)

/-- Vertices have their position, of three or four floats, at float `o`. -/
structure PositionAt (vs o : Nat) (m : Mesh F) (p : VAttr) : Prop where
  last : LastPosition m.vattrs p
  start : StartsAt m.vertformat p o
  wide : p.vartype = 2 ∨ p.vartype = 3
  fits : o + 3 ≤ vs

/-- `x` is the position of a vertex of material `a`. -/
def PosOf (vs o : Nat) (m : Mesh F) (a : Mat F) (x : Vec3 F) : Prop :=
  ∃ v : Nat, (v : Int) < a.vnum ∧ vec3At m.vertices ((a.vstart.toNat + v) * vs + o) = some x

/-- Component of a vector. -/
def Vec3.comp (v : Vec3 F) : Fin 3 → F
  | 0 => v.x
  | 1 => v.y
  | 2 => v.z

/-- No component of such a vector is below `mn` or above `mx`. -/
def Covers [FArith F] (mn mx : Vec3 F) (P : Vec3 F → Prop) : Prop :=
  ∀ x, P x → ∀ c, FArith.lt (x.comp c) (mn.comp c) = false ∧ FArith.lt (mx.comp c) (x.comp c) = false

/-- Each component of `mn` and `mx` is `0.0` or that of such a vector. -/
def Tight [FArith F] (mn mx : Vec3 F) (P : Vec3 F → Prop) : Prop :=
  ∀ c, (mn.comp c = FArith.zero ∨ ∃ x, P x ∧ mn.comp c = x.comp c) ∧
    (mx.comp c = FArith.zero ∨ ∃ x, P x ∧ mx.comp c = x.comp c)

/-- Bounds of materials and lods are wanted (`not isSkinnedMesh and head.version == 11`). -/
def Bounded (m : Mesh F) : Prop := m.kind.isSkinned = false ∧ m.head.version = 11

/-- Every attribute not marked unused has a known usage and type and starts at a whole float. -/
def AttrsKnown (m : Mesh F) : Prop := ∀ b ∈ m.vattrs, b.flag ≠ 255 →
  KnownUsage b.usage ∧ (∃ n, typeFloats b.vartype = some n) ∧ ∃ q, StartsAt m.vertformat b q

/-- Every lod and material of `m'` has bounds with property `P` of the positions in `m`. -/
def BoundsAre (P : Vec3 F → Vec3 F → (Vec3 F → Prop) → Prop) (vs o : Nat) (m m' : Mesh F) : Prop :=
  List.Forall₂ (fun g g' : Geom F => List.Forall₂ (fun l l' : Lod F =>
      P l'.min l'.max (fun x => ∃ a ∈ l.materials, PosOf vs o m a x) ∧
      List.Forall₂ (fun a a' : Mat F => ∃ mn mx, a'.mmin = some mn ∧ a'.mmax = some mx ∧
        P mn mx (PosOf vs o m a)) l.materials l'.materials)
    g.lods g'.lods) m.geoms m'.geoms

/-- A lod with its bounds and those of its materials overwritten. -/
def Lod.eraseBounds (z : Vec3 F) (l : Lod F) : Lod F := { l with
  min := z, max := z, materials := l.materials.map fun a => { a with mmin := none, mmax := none } }

/-- A mesh with all bounds overwritten. -/
def Mesh.eraseBounds (z : Vec3 F) (m : Mesh F) : Mesh F := { m with
  geoms := m.geoms.map fun g => { g with lods := g.lods.map (Lod.eraseBounds z) } }

end Bf2
