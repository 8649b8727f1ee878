import Verif.ColEditSpec
import Mathlib.Data.Real.Basic

/-!
# What a mesh beside its moved copy should be
-/

namespace Bf2

section
variable {F : Type}

/-- Two meshes that look like `m` and share no face object: one loaded, and its deep copy. -/
structure TwoCopies (h : Heap) (a b : ColMesh F Nat) (m : ColMesh F ColFace) : Prop where
  first : a.view h = m
  second : b.view h = m
  once : b.allFaces.Nodup
  apart : ∀ x ∈ a.allFaces, x ∉ b.allFaces

variable [FArith F]

/-- `v` moved by `d` -/
def movedVec (d v : Vec3 F) : Vec3 F := ⟨FArith.add v.x d.x, FArith.add v.y d.y, FArith.add v.z d.z⟩

/-- `z` is the lod `x` beside a copy of it moved by `diff`, the whole moved by `off`.  (Bounds are dealt
with separately.) -/
structure Doubled (diff off : Vec3 F) (x z : ColLod F ColFace) : Prop where
  vertices : z.vertices = x.vertices.map (fun v => movedVec off v) ++
    x.vertices.map (fun v => movedVec off (movedVec diff v))
  faces : z.faces = x.faces ++ x.faces.map fun f =>
    { f with v1 := f.v1 + x.vertnum, v2 := f.v2 + x.vertnum, v3 := f.v3 + x.vertnum }
  vertids : z.vertids = x.vertids ++ x.vertids
  ydata : z.ydata = x.ydata ++ x.ydata
  zdata : z.zdata = x.zdata ++ x.zdata
  adata : z.adata = x.adata ++ x.adata
  vertnum : z.vertnum = 2 * x.vertnum
  facenum : z.facenum = 2 * x.facenum
  ynum : z.ynum = 2 * x.ynum
  znum : z.znum = 2 * x.znum
  anum : z.anum = 2 * x.anum
  coltype : z.coltype = x.coltype
  u7 : z.u7 = x.u7

end

/-- `low` .. `high` is the smallest box around these vectors. -/
def SmallestBox (low high : Vec3 ℝ) (vs : List (Vec3 ℝ)) : Prop :=
  ∀ c, (∀ v ∈ vs, low.comp c ≤ v.comp c ∧ v.comp c ≤ high.comp c) ∧
    (∃ v ∈ vs, v.comp c = low.comp c) ∧ ∃ v ∈ vs, v.comp c = high.comp c

end Bf2
