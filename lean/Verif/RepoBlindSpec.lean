import Verif.Spec

/-! # What the edit tests of the package look at -/

namespace Bf2

variable {F : Type}

/-- `a` is material `k` of lod `j` of geom `i`. -/
def MatIn (m : Mesh F) (i j k : Nat) (a : Mat F) : Prop :=
  ∃ g l, m.geoms[i]? = some g ∧ g.lods[j]? = some l ∧ l.materials[k]? = some a

/-- The counts of `c` are those of `a` and `b` together. -/
def CountsOf (a b c : Mat F) : Prop := c.vnum = b.vnum + a.vnum ∧ c.inum = b.inum + a.inum

/-- Material for material, in the same places, the numbers of vertices and indices are the same. -/
def EqualCounts (m m' : Mesh F) : Prop :=
  List.Forall₂ (fun g g' : Geom F => List.Forall₂ (fun l l' : Lod F =>
    List.Forall₂ (fun a a' : Mat F => a.vnum = a'.vnum ∧ a.inum = a'.inum) l.materials l'.materials)
    g.lods g'.lods) m.geoms m'.geoms

/-- The numbers of the vertices of a geom added up. -/
def Geom.vertexCount (g : Geom F) : Int := (g.lods.map fun l => (l.materials.map Mat.vnum).sum).sum

end Bf2
