import Verif.ColSpec
import Verif.ColEditSpec

/-! # Which collision meshes can be saved beside a copy of themselves -/

namespace Bf2

/-- The lod can hold its contents twice: the doubled counts fit, and so do the corners of the copied faces. -/
structure CanDouble {F : Type} (pl : Plat) (version : Int) (l : ColLod F ColFace) : Prop where
  faces : IsLong pl (2 * l.facenum)
  vertices : IsLong pl (2 * l.vertnum)
  ydata : IsLong pl (2 * l.ynum)
  zdata : IsLong pl (2 * l.znum)
  adata : 10 ≤ version → IsLong pl (2 * l.anum)
  corners : ∀ f ∈ l.faces, ∀ v ∈ f.corners, -32768 ≤ v + l.vertnum ∧ v + l.vertnum ≤ 32767

end Bf2
