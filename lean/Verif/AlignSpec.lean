import Verif.ColEditSpec
import Verif.ColSpec
import Verif.DriftSpec

/-!
# Moves and saves of a collision mesh

The edits that a collision mesh and a visible mesh have in common, so that one can ask whether both stay
where they were relative to each other.
-/

namespace Bf2

/-- Vertex `n` of lod `k` of subgeom `j` of geom `i`. -/
def ColMesh.vertexAt {F φ : Type} (m : ColMesh F φ) (i j k n : Nat) : Option (Vec3 F) :=
  (m.lodAt i j k).bind fun l => l.vertices[n]?

/-- `translate`, and saving with loading again. -/
inductive ColAct where
  | move (d : Vec3 F64)
  | store

/-- One edit; saving raises nothing. -/
inductive ColDoes : ColMesh F64 ColFace → ColAct → ColMesh F64 ColFace → Prop
  | move {m : ColMesh F64 ColFace} {d : Vec3 F64} : ColDoes m (.move d) (colTranslate d m)
  | store {m m' : ColMesh F64 ColFace} {pl : Plat} {file : Bytes} : writeCol pl m = ⟨file, none⟩ →
      loadCol pl file = .ok m' → ColDoes m .store m'

/-- One edit after the other. -/
inductive ColRuns : ColMesh F64 ColFace → List ColAct → ColMesh F64 ColFace → Prop
  | nil {m : ColMesh F64 ColFace} : ColRuns m [] m
  | cons {m m1 m2 : ColMesh F64 ColFace} {s : ColAct} {ss : List ColAct} : ColDoes m s m1 → ColRuns m1 ss m2 →
      ColRuns m (s :: ss) m2

/-- The same edit of a visible mesh. -/
def ColAct.act : ColAct → Act
  | .move d => .move d
  | .store => .store

/-- The same edit of a collision mesh, if there is one: collision meshes can not be turned, and their bounds
can not be updated. -/
def Act.col : Act → Option ColAct
  | .move d => some (.move d)
  | .store => some .store
  | .turn _ _ _ => none
  | .update => none

/-- The distances of an edit are finite. -/
def ColAct.Fine : ColAct → Prop
  | .move d => d.Finite
  | .store => True

end Bf2
