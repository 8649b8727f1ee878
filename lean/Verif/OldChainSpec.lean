import Verif.OldHistorySpec

/-!
# Many meshes of the deprecated module on top of each other
-/

namespace Bf2

variable {F : Type}

/-- The materials at place `i` of several meshes, each with its mesh. -/
def oldColumn (i : Nat) (ms : List (OldMesh F)) : List (OldMesh F × Mat F) :=
  ms.filterMap fun m => m.mats[i]?.map fun a => (m, a)

/-- How many vertices the materials have together. -/
def oldColumnVerts (c : List (OldMesh F × Mat F)) : Int := (c.map fun p => p.2.vnum).sum

/-- `l` is made of the indices of the materials one after the other, those of each moved up by the
number of vertices of all materials before it. -/
def OldStacked (c : List (OldMesh F × Mat F)) (l : List Int) : Prop :=
  ∃ parts : List (List Int), l = parts.flatten ∧ parts.length = c.length ∧
    ∀ (k : Nat) p, c[k]? = some p →
      parts[k]? = some ((p.1.idata p.2).map (· + oldColumnVerts (c.take k)))

/-- Some index of a material that is not the lowest of its column gets more than 16 bits. -/
def OldChainOverflows (ms : List (OldMesh F)) : Prop :=
  ∃ (i k : Nat) (p : OldMesh F × Mat F) (v : Int), 0 < k ∧ (oldColumn i ms)[k]? = some p ∧
    v ∈ p.1.idata p.2 ∧ 65535 < v + oldColumnVerts ((oldColumn i ms).take k)

/-- Lod `l'` is `l` but for its box and the ranges and boxes of its materials. -/
structure LodStays (l l' : OldLod F) : Prop where
  mats : l'.materials.length = l.materials.length
  rest : { l' with min := l.min, max := l.max, materials := l.materials } = l

/-- The geoms of `m'` are those of `m` but for boxes and the ranges of materials. -/
def GeomsStay (m m' : OldMesh F) : Prop :=
  List.Forall₂ (fun g g' : OldGeom F => g'.lodnum = g.lodnum ∧ List.Forall₂ LodStays g.lods g'.lods)
    m.geoms m'.geoms

/-- What may be merged one after the other. -/
structure OldChainable (vs : Nat) (m : OldMesh F) (os : List (OldMesh F)) : Prop where
  first : OldOrderly vs m
  others : ∀ o ∈ os, OldOrderly vs o
  attrs : ∀ o ∈ os, m.vattrs = o.vattrs
  static : ∀ o ∈ os, m.kind.isStatic = true ∨ o.kind.isStatic = true
  counts : ∀ o ∈ os, OldSameCounts m o
  small : m.vertices.length + (os.map fun o => o.vertices.length).sum ≤ 2 ^ 53

end Bf2
