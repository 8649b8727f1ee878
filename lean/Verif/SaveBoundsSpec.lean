import Verif.BoundsSpec
import Verif.Float64

/-!
# Bounds in saved files

The two zeros, a mesh with all its bounds changed, and coordinates that binary32 cannot tell from zero.
-/

namespace Bf2

/-- `-0.0` -/
def negZero : F64 := F64.zero.negate

/-- The number without the sign of a zero. -/
def plainZero (x : F64) : F64 := if x = negZero then F64.zero else x

/-- `-2.0 ** -150`, half the least positive binary32 number, negated. -/
def halfTiny : F64 := F64.mk' true (873 * 2 ^ 52)

variable {F : Type}

/-- A lod with each number of its bounds, and of those of its materials, replaced by its image. -/
def Lod.mapBounds (f : F → F) (l : Lod F) : Lod F := { l with
  min := l.min.map f, max := l.max.map f
  materials := l.materials.map fun a => { a with mmin := a.mmin.map (Vec3.map f), mmax := a.mmax.map (Vec3.map f) } }

/-- A mesh with each number of its bounds replaced by its image. -/
def Mesh.mapBounds (f : F → F) (m : Mesh F) : Mesh F := { m with
  geoms := m.geoms.map fun g => { g with lods := g.lods.map (Lod.mapBounds f) } }

/-- Some of these vectors reach below zero with their component `c`, none further than `2 ** -150`. -/
def JustBelow (P : Vec3 F64 → Prop) (c : Fin 3) : Prop :=
  (∃ x, P x ∧ F64.lt' (x.comp c) F64.zero = true) ∧
    ∀ x, P x → F64.lt' (x.comp c) halfTiny = false

/-- A mesh whose positions can all be read: three or four floats at float `o` of a vertex, attributes
of known types and usages, and the vertices of every material in the vertex list. -/
structure Boundable (vs o : Nat) (m : Mesh F) : Prop where
  size : VertexSize m.vattrs vs
  position : ∃ p, PositionAt vs o m p
  known : AttrsKnown m
  inside : ∀ a ∈ m.mats, VertsInside vs m a

end Bf2
