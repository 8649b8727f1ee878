import Verif.EqualSpec
import Verif.OldMesh

/-!
# What equality in the deprecated module should mean
-/

namespace Bf2

/-- All fields of two lods agree, and neither has a rig. -/
structure OldLodEqual (a b : OldLod F64) : Prop where
  min : NumsEq a.min.floats b.min.floats
  max : NumsEq a.max.floats b.max.floats
  pivot : NumsEq (optFloats a.pivot) (optFloats b.pivot)
  rignum : a.rignum = b.rignum
  rigs : a.rigs = [] ∧ b.rigs = []
  nodenum : a.nodenum = b.nodenum
  nodes : NumsEq (a.nodes.elim [] Mat4.floats) (b.nodes.elim [] Mat4.floats)
  matnum : a.matnum = b.matnum
  materials : List.Forall₂ (fun x y : Mat F64 => MatEqual x y ∧
    NumsEq (optFloats x.mmax) (optFloats y.mmax)) a.materials b.materials

/-- The floats of a lod `__eq__` looks at. -/
def OldLod.floats {F : Type} (l : OldLod F) : List F :=
  l.min.floats ++ l.max.floats ++ optFloats l.pivot ++ l.nodes.elim [] Mat4.floats ++
    l.materials.flatMap Mat.floats

end Bf2
