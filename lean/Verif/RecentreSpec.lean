import Verif.EditSpec
import Verif.Exact

/-!
# Centring a lod again and again (C188)
-/

namespace Bf2

noncomputable section

/-- `get_lod_center_offset` and `translate` by the negated result, `n` times. -/
inductive Centred (geomId lodId : Int) : Nat → Mesh ℝ → Mesh ℝ → Prop
  | none {m : Mesh ℝ} : Centred geomId lodId 0 m m
  | again {n : Nat} {m mu m1 m2 : Mesh ℝ} {c : Vec3 ℝ} : getLodCenterOffset m geomId lodId true = (mu, .ok c) →
      translate mu [-c.x, -c.y, -c.z] = (m1, .none) → Centred geomId lodId n m1 m2 → Centred geomId lodId (n + 1) m m2

/-- The vectors with property `P` are from `lo` to `hi` along axis `i`, and reach both. -/
structure Reaches (P : Vec3 ℝ → Prop) (i : Fin 3) (lo hi : ℝ) : Prop where
  between : ∀ x, P x → lo ≤ x.comp i ∧ x.comp i ≤ hi
  low : ∃ x, P x ∧ x.comp i = lo
  high : ∃ x, P x ∧ x.comp i = hi

/-- A mesh with bounds in good order, and one of its lods. -/
structure LodOf (vs o : Nat) (p : VAttr) (geomId lodId : Int) (j k : Nat) (m : Mesh ℝ) (g : Geom ℝ) (l : Lod ℝ) :
    Prop where
  tiled : TiledVerts vs m
  bounded : Bounded m
  first : FirstPosition m.vattrs p
  pos : PositionAt vs o m p
  known : AttrsKnown m
  geom : Names m.geoms.length geomId j
  atGeom : m.geoms[j]? = some g
  lod : Names g.lods.length lodId k
  atLod : g.lods[k]? = some l

end

end Bf2
