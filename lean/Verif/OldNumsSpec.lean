import Verif.ColMesh

/-! # Collision meshes with a vertex (C169) -/

namespace Bf2

/-- The mesh has a vertex. -/
def HasVertex {F φ : Type} (m : ColMesh F φ) : Prop :=
  ∃ g ∈ m.geoms, ∃ s ∈ g.subgeoms, ∃ l ∈ s.lods, ∃ v, v ∈ l.vertices

end Bf2
