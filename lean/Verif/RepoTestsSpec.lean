import Verif.Spec

/-! # What the tests of the package should show -/

namespace Bf2

variable {F : Type}

/-- The floats of a lod that no edit changes: pivot, bone and node matrices. -/
def Lod.frameFloats (l : Lod F) : List F :=
  optFloats l.pivot ++ l.rigs.flatMap (fun r => r.bones.flatMap fun b => b.matrix.floats)
    ++ l.nodes.flatMap Mat4.floats

/-- The floats of a mesh that `export` writes as they were loaded: vertices, pivots and matrices. -/
def Mesh.keptFloats (m : Mesh F) : List F :=
  m.vertices ++ m.geoms.flatMap fun g => g.lods.flatMap Lod.frameFloats

end Bf2
