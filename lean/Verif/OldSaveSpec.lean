import Verif.OldTransformSpec

/-!
# Which mesh objects of the deprecated module can be saved
-/

namespace Bf2

variable {F : Type}

/-- A lod with the fields its kind and version call for, and counts that agree with its lists. -/
structure OldLodWF (k : Kind) (version : Int) (l : OldLod F) : Prop where
  pivot : l.pivot.isSome = decide (version ≤ 6)
  rignum : l.rignum.isSome = k.isSkinned
  rigs : l.rigs.length = (l.rignum.getD 0).toNat
  bones : ∀ r ∈ l.rigs, r.bones.length = r.bonenum.toNat
  nodenum : l.nodenum.isSome = !k.isSkinned
  nodes : l.nodes.isSome = (!k.isBundled && decide (0 < l.nodenum.getD 0))
  materials : l.materials.length = l.matnum.toNat
  each : ∀ a ∈ l.materials, MatWF k version a

/-- A mesh object whose counts agree with its lists. -/
structure OldWF (o : OldMesh F) : Prop where
  geoms : o.geoms.length = o.geomnum.toNat
  lods : ∀ g ∈ o.geoms, g.lods.length = g.lodnum.toNat
  lod : ∀ g ∈ o.geoms, ∀ l ∈ g.lods, OldLodWF o.kind o.head.version l
  vattrs : o.vattrs.length = o.vertattribnum.toNat
  vertformat : o.vertformat ≠ 0
  vertices : (o.vertices.length : Int) = intDivMul o.vertstride o.vertformat o.vertnum
  not_one : o.vertices.length ≠ 1
  index : (o.index.length : Int) = o.indexnum
  u2 : o.kind.isSkinned = true → o.u2 = 0

/-- Fits a signed 16-bit field. -/
def IsSShort (v : Int) : Prop := -32768 ≤ v ∧ v ≤ 32767

structure OldLodInRange (pl : Plat) (l : OldLod F) : Prop where
  rignum : ∀ n, l.rignum = some n → IsLong pl n
  bonenum : ∀ r ∈ l.rigs, IsLong pl r.bonenum
  boneid : ∀ r ∈ l.rigs, ∀ b ∈ r.bones, IsLong pl b.id
  nodenum : ∀ n, l.nodenum = some n → IsLong pl n
  matnum : IsLong pl l.matnum
  mats : ∀ m ∈ l.materials, MatInRange pl m

/-- Every integer of the mesh object fits the field it is written to. -/
structure OldInRange (pl : Plat) (o : OldMesh F) : Prop where
  head_u1 : IsLong pl o.head.u1
  version : IsLong pl o.head.version
  head_u3 : IsLong pl o.head.u3
  head_u4 : IsLong pl o.head.u4
  head_u5 : IsLong pl o.head.u5
  u1 : -128 ≤ o.u1 ∧ o.u1 ≤ 127
  geomnum : IsLong pl o.geomnum
  lodnum : ∀ g ∈ o.geoms, IsLong pl g.lodnum
  vertattribnum : IsLong pl o.vertattribnum
  vattrs : ∀ a ∈ o.vattrs, IsSShort a.flag ∧ IsSShort a.offset ∧ IsSShort a.vartype ∧ IsSShort a.usage
  vertformat : IsLong pl o.vertformat
  vertstride : IsLong pl o.vertstride
  vertnum : IsLong pl o.vertnum
  indexnum : IsLong pl o.indexnum
  index : ∀ i ∈ o.index, IsShort i
  u2 : IsLong pl o.u2
  lods : ∀ g ∈ o.geoms, ∀ l ∈ g.lods, OldLodInRange pl l

/-- A float as it comes back from a file: rounded to binary32. -/
def stored (x : F64) : F64 := unpackF (packF x)

end Bf2
