import Verif.Edit
import Verif.EditSpec
import Verif.FloatCodec
import Mathlib.Logic.Relation

/-! # Specification vocabulary for edit histories -/

namespace Bf2

variable {F : Type}

/-- A mesh in good order: counts agree with the collections, materials tile both arrays, `vertnum`
vertices of `vs` floats, positions, normals and tangents of three floats each, 16-bit indices. -/
structure Orderly (vs : Nat) (m : Mesh F) : Prop where
  wf : MeshWF m
  verts : TiledVerts vs m
  index : TiledIndex m
  many : ∃ l, m.index = .many l
  stride : m.vertstride = m.vertformat * vs
  count : (m.vertices.length : Int) = vs * m.vertnum
  size : m.vertices.length ≤ 2 ^ 53
  vectors : Float3Vectors vs m
  fit : ∀ v ∈ m.index.elems, IsShort v

/-- What no edit touches: the kind, the header, the number of geoms and the vertex format. -/
structure SameFormat (m m' : Mesh F) : Prop where
  kind : m'.kind = m.kind
  head : m'.head = m.head
  geomnum : m'.geomnum = m.geomnum
  vertattribnum : m'.vertattribnum = m.vertattribnum
  vattrs : m'.vattrs = m.vattrs
  vertformat : m'.vertformat = m.vertformat
  vertstride : m'.vertstride = m.vertstride
  u1 : m'.u1 = m.u1
  u2 : m'.u2 = m.u2

/-- One call of a method that edits a mesh, and what the mesh is afterwards.  `translate`, `rotate`,
`update_boundaries` and `get_lod_center_offset` may raise; the mesh is then what they leave behind.
`change_geoms_order` gets an order naming every geom once.  `merge` gets any mesh in good order and
returns (having merged or refused).  Saving and loading the file again counts as a step. -/
inductive Step [Libm F64] (m : Mesh F64) : Mesh F64 → Prop
  | translate (d : List F64) : Step m (translate m d).1
  | rotate (r : List F64) : Step m (rotate m r).1
  | update : Step m (updateBoundaries m).1
  | center (geomId lodId : Int) (update : Bool) : Step m (getLodCenterOffset m geomId lodId update).1
  | reorder {order : List Int} {js : List Nat} (h : Permutes m.geoms.length order js) :
      Step m (changeGeomsOrder m order).1
  | merge {vs : Nat} {o m' : Mesh F64} {r : MergeRet} (orderly : Orderly vs o)
      (returns : merge m o = (m', .ok r)) (size : m'.vertices.length ≤ 2 ^ 53) : Step m m'
  | mergeSelf {m' : Mesh F64} {r : MergeRet} (returns : mergeSelf m = (m', .ok r))
      (size : m'.vertices.length ≤ 2 ^ 53) : Step m m'
  | saveLoad {pl : Plat} {file : Bytes} {m' : Mesh F64} (saved : exportMesh pl m = ⟨file, none⟩)
      (loaded : load pl m.kind file = .ok m') : Step m m'

/-- Any number of such calls, one after the other. -/
abbrev History [Libm F64] : Mesh F64 → Mesh F64 → Prop := Relation.ReflTransGen Step

end Bf2
