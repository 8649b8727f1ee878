import Verif.OldEdit
import Verif.EditSpec

/-!
# Specification vocabulary for the editing methods of `/repo/deprecated/modmesh.py`

Only data types, `OldMesh.mats` and the arithmetic operations `FArith` are used here.
-/

namespace Bf2

variable {F : Type}

/-- Floats per value of a vertex type, as the deprecated module counts them; it has no length for
FLOAT4. -/
def oldFloats : Int → Option Nat
  | 0 => some 1
  | 1 => some 2
  | 2 => some 3
  | 4 => some 1
  | 5 => some 3
  | _ => none

/-- The types of `D3DDECLTYPE`. -/
def OldKnownType (t : Int) : Prop := t ∈ [0, 1, 2, 3, 4, 5, 17]

instance (t : Int) : Decidable (OldKnownType t) := by unfold OldKnownType; infer_instance

instance (u : Int) : Decidable (KnownUsage u) := by unfold KnownUsage; infer_instance

/-- The attributes not marked unused follow each other in table order, without gaps, from float `o`
to the end of a vertex of `vs` floats. -/
inductive Packs (vf : Int) (vs : Nat) : Nat → List VAttr → Prop
  | done : Packs vf vs vs []
  | unused {o : Nat} {a as} : a.flag = 255 → Packs vf vs o as → Packs vf vs o (a :: as)
  | used {o n : Nat} {a as} : a.flag ≠ 255 → oldFloats a.vartype = some n → a.offset = vf * o →
      Packs vf vs (o + n) as → Packs vf vs o (a :: as)

/-- The attribute table describes vertices of `vs` floats, completely and in order. -/
structure PackedTable (vs : Nat) (vf stride : Int) (attrs : List VAttr) : Prop where
  pos : 0 < vs
  small : vs ≤ 65535
  format : vf ≠ 0
  stride : stride = vf * vs
  known : ∀ a ∈ attrs, OldKnownType a.vartype ∧ KnownUsage a.usage
  packs : Packs vf vs 0 attrs
  distinct : ((attrs.filter fun a => a.flag != 255).map VAttr.usage).Nodup

/-- A mesh with such a table and a vertex array of `vertnum` vertices. -/
structure Packed (vs : Nat) (m : OldMesh F) : Prop where
  table : PackedTable vs m.vertformat m.vertstride m.vattrs
  count : (m.vertices.length : Int) = m.vertnum * vs

/-- The floats of vertex `i`. -/
def vert (vs : Nat) (l : List F) (i : Nat) : List F := (l.drop (i * vs)).take vs

/-- The attribute with usage `u` in use is a FLOAT3 at float `o`. -/
def Float3At (vf : Int) (attrs : List VAttr) (u : Int) (o : Nat) : Prop :=
  ∃ a ∈ attrs, a.flag ≠ 255 ∧ a.usage = u ∧ a.vartype = 2 ∧ a.offset = vf * o

/-- The vertices of every material exist. -/
def VertsExist (m : OldMesh F) : Prop :=
  ∀ a ∈ m.mats, 0 ≤ a.vstart ∧ 0 ≤ a.vnum ∧ a.vstart + a.vnum ≤ m.vertnum

/-- The numbers of the vertices of a material. -/
def Mat.ids (a : Mat F) : List Nat := List.range' a.vstart.toNat a.vnum.toNat

/-- The numbers of the vertices of all materials, material by material. -/
def OldMesh.ids (m : OldMesh F) : List Nat := m.mats.flatMap Mat.ids

/-- Materials in file order tile the vertex array. -/
structure OldTiled (m : OldMesh F) : Prop where
  nonneg : ∀ a ∈ m.mats, 0 ≤ a.vnum
  start : ∀ (i : Nat) (a : Mat F), m.mats[i]? = some a →
    a.vstart = ((m.mats.take i).map Mat.vnum).sum
  total : m.vertnum = (m.mats.map Mat.vnum).sum

/-- Every material has bounds. -/
def HasBounds (m : OldMesh F) : Prop := ∀ a ∈ m.mats, a.mmin ≠ none ∧ a.mmax ≠ none

/-- A vertex with its position, at float `o`, moved by `d`; each sum is `(0 + x) + d`. -/
def movedVert [FArith F] (o : Nat) (d : Vec3 F) (w : List F) : List F :=
  w.mapIdx fun c x =>
    if c = o then FArith.add (FArith.add FArith.zero x) d.x
    else if c = o + 1 then FArith.add (FArith.add FArith.zero x) d.y
    else if c = o + 2 then FArith.add (FArith.add FArith.zero x) d.z
    else x

/-- `x` is the position, at float `o`, of a vertex of material `a`. -/
def OldPosOf (vs o : Nat) (m : OldMesh F) (a : Mat F) (x : Vec3 F) : Prop :=
  ∃ i ∈ a.ids, vec3At m.vertices (i * vs + o) = some x

/-- Bounds `(mn', mx')` are bounds `(mn, mx)` grown to the vectors with `P`: none of them is outside,
no bound moved inwards, and every component is an old one or one of such a vector. -/
structure BoxGrown [FArith F] (mn mx mn' mx' : Vec3 F) (P : Vec3 F → Prop) : Prop where
  covers : Covers mn' mx' P
  outwards : ∀ c, FArith.lt (mn.comp c) (mn'.comp c) = false ∧
    FArith.lt (mx'.comp c) (mx.comp c) = false
  tight : ∀ c, (mn'.comp c = mn.comp c ∨ ∃ x, P x ∧ mn'.comp c = x.comp c) ∧
    (mx'.comp c = mx.comp c ∨ ∃ x, P x ∧ mx'.comp c = x.comp c)

/-- Lod `l'` is `l` with its bounds and those of its materials grown to their positions in `m`. -/
structure LodGrown [FArith F] (vs o : Nat) (m : OldMesh F) (l l' : OldLod F) : Prop where
  lod : BoxGrown l.min l.max l'.min l'.max (fun x => ∃ a ∈ l.materials, OldPosOf vs o m a x)
  mats : List.Forall₂ (fun a a' : Mat F => ∃ mn mx mn' mx', a.mmin = some mn ∧ a.mmax = some mx ∧
    a' = { a with mmin := some mn', mmax := some mx' } ∧ BoxGrown mn mx mn' mx' (OldPosOf vs o m a))
    l.materials l'.materials
  rest : { l' with min := l.min, max := l.max, materials := l.materials } = l

/-- `gs` are the geoms of `m` with all bounds grown to the positions of the vertices of `m`. -/
def BoundsGrown [FArith F] (vs o : Nat) (m : OldMesh F) (gs : List (OldGeom F)) : Prop :=
  List.Forall₂ (fun g g' : OldGeom F => g'.lodnum = g.lodnum ∧
    List.Forall₂ (LodGrown vs o m) g.lods g'.lods) m.geoms gs

/-! ## Merging -/

/-- The same numbers of geoms, lods and materials. -/
def OldSameCounts (m o : OldMesh F) : Prop :=
  List.Forall₂ (fun g h : OldGeom F =>
    List.Forall₂ (fun l k : OldLod F => l.materials.length = k.materials.length) g.lods h.lods)
    m.geoms o.geoms

/-- The indices of every material exist. -/
def IndexExist (m : OldMesh F) : Prop :=
  ∀ a ∈ m.mats, 0 ≤ a.istart ∧ 0 ≤ a.inum ∧ a.istart + a.inum ≤ m.index.length

/-- Vertex data of a material. -/
def OldMesh.vdata (vs : Nat) (m : OldMesh F) (a : Mat F) : List F :=
  block m.vertices (a.vstart * vs) (a.vnum * vs)

/-- Indices of a material. -/
def OldMesh.idata (m : OldMesh F) (a : Mat F) : List Int := block m.index a.istart a.inum

/-- Materials in file order tile the index array. -/
structure OldTiledIndex (m : OldMesh F) : Prop where
  nonneg : ∀ a ∈ m.mats, 0 ≤ a.inum
  start : ∀ (i : Nat) (a : Mat F), m.mats[i]? = some a →
    a.istart = ((m.mats.take i).map Mat.inum).sum
  total : (m.index.length : Int) = (m.mats.map Mat.inum).sum

/-- `a'` in `m'` is `a` of `m` merged with `b` of `o`. -/
structure OldMatMerged (vs : Nat) (m o m' : OldMesh F) (a b a' : Mat F) : Prop where
  fields : a' = { a with
    vnum := a.vnum + b.vnum, inum := a.inum + b.inum, vstart := a'.vstart, istart := a'.istart
    mmin := a'.mmin, mmax := a'.mmax }
  verts : m'.vdata vs a' = m.vdata vs a ++ o.vdata vs b
  index : m'.idata a' = m.idata a ++ (o.idata b).map (· + a.vnum)

/-- What may be merged: one layout, equal tables, a static mesh among the two, equal counts, ranges
that exist. -/
structure OldMergeable (vs : Nat) (m o : OldMesh F) : Prop where
  packed : Packed vs m
  packed' : Packed vs o
  attrs : m.vattrs = o.vattrs
  static : m.kind.isStatic = true ∨ o.kind.isStatic = true
  counts : OldSameCounts m o
  verts : VertsExist m
  verts' : VertsExist o
  index : IndexExist m
  index' : IndexExist o

/-- Lod `l'` of `m'` is `l` with as many materials as before, and bounds grown to the positions in
`m'`. -/
structure OldLodMerged [FArith F] (vs p : Nat) (m' : OldMesh F) (l l' : OldLod F) : Prop where
  lod : BoxGrown l.min l.max l'.min l'.max (fun x => ∃ a ∈ l'.materials, OldPosOf vs p m' a x)
  mats : l'.materials.length = l.materials.length
  rest : { l' with min := l.min, max := l.max, materials := l.materials } = l

/-- The bounds of `a'` are those of `a` grown to the positions of the vertices of `a'` in `m'`. -/
def MatGrown [FArith F] (vs p : Nat) (m' : OldMesh F) (a a' : Mat F) : Prop :=
  ∃ mn mx mn' mx', a.mmin = some mn ∧ a.mmax = some mx ∧ a'.mmin = some mn' ∧ a'.mmax = some mx' ∧
    BoxGrown mn mx mn' mx' (OldPosOf vs p m' a')

/-- Geom `h'` is `h` with surplus lods at the end left out, and surplus materials at the end of each
lod. -/
def GeomCut (h' h : OldGeom F) : Prop :=
  ∃ ls, ls <+: h.lods ∧ List.Forall₂ (fun l' l : OldLod F => l'.materials <+: l.materials) h'.lods ls

end Bf2
