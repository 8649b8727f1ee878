import Verif.OldSaveSpec
import Verif.OldEdit
import Mathlib.Logic.Relation

/-!
# Edit histories of the deprecated module
-/

namespace Bf2

variable {F : Type}

/-- A mesh object in good order: counts agree, the vertex layout is packed, materials tile both arrays
and have bounds, and vertices have positions, normals and tangents of three floats each. -/
structure OldOrderly (vs : Nat) (m : OldMesh F) : Prop where
  wf : OldWF m
  packed : Packed vs m
  tiled : OldTiled m
  tiledIndex : OldTiledIndex m
  bounds : HasBounds m
  pos : ∃ o, Float3At m.vertformat m.vattrs 0 o
  normal : ∃ o, Float3At m.vertformat m.vattrs 3 o
  tangent : ∃ o, Float3At m.vertformat m.vattrs 6 o
  small : m.vertices.length ≤ 2 ^ 53

/-- What one call leaves of `m`, and what it raises.  `lists` is `m.vertices = list(m.vertices)` and
the same for `m.index`. -/
inductive OldStep [FArith F] [Libm F] (vs : Nat) (m : OldMesh F) : OldMesh F × Option Err → Prop
  | translate (d : Vec3 F) (rest : List F) : OldStep vs m (oldTranslate m (d.x :: d.y :: d.z :: rest))
  | rotate (y p r : F) (rest : List F)
      (defined : ∀ a ∈ [y, p, r], (Libm.cos (Libm.radians a)).isSome ∧
        (Libm.sin (Libm.radians a)).isSome) : OldStep vs m (oldRotate m (y :: p :: r :: rest))
  | rename (geom lod mat map : Int) (path : List Nat) :
      OldStep vs m (renameTexture m geom lod mat map path)
  | lists : OldStep vs m ({ m with vertsList := true, indexList := true }, none)
  | delete {j : Nat} {g : OldGeom F} {a : Mat F} (hg : m.geoms[j]? = some g) (first : g.First a)
      (vertsList : m.vertsList = true) (indexList : m.indexList = true) :
      OldStep vs m (deleteGeomId m j)
  | edit {o i : Nat} {u : Int} {data : List F} (editable : ∀ a ∈ m.vattrs, EditableAttr a)
      (usage : UsageAt m.vertformat m.vattrs u o) (vertsList : m.vertsList = true)
      (exist : (i : Int) < m.vertnum) (inside : o + data.length ≤ vs) :
      OldStep vs m (editVertex m i u data)
  | merge {other : OldMesh F} (order : OldOrderly vs other) (attrs : m.vattrs = other.vattrs)
      (static : m.kind.isStatic = true ∨ other.kind.isStatic = true) (counts : OldSameCounts m other)
      (small : m.vertices.length + other.vertices.length ≤ 2 ^ 53) :
      OldStep vs m (oldMerge m other)

/-- The same kind, head and vertex layout. -/
structure OldSameFormat (m m' : OldMesh F) : Prop where
  kind : m'.kind = m.kind
  head : m'.head = m.head
  u1 : m'.u1 = m.u1
  u2 : m'.u2 = m.u2
  vertattribnum : m'.vertattribnum = m.vertattribnum
  vattrs : m'.vattrs = m.vattrs
  vertformat : m'.vertformat = m.vertformat
  vertstride : m'.vertstride = m.vertstride

/-- Any number of calls, one after the other, also after one has raised. -/
def OldHistory [FArith F] [Libm F] (vs : Nat) : OldMesh F → OldMesh F → Prop :=
  Relation.ReflTransGen fun m m' => ∃ e, OldStep vs m (m', e)

end Bf2
