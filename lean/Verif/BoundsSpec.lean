import Verif.EditSpec

/-!
# What updated bounds are

The smallest box around the origin and some vectors, and the box around two boxes, said without the
loops of `update_boundaries`.
-/

namespace Bf2

variable {F : Type}

/-- The order of floats on the numbers: what is not a NaN is comparable with everything below or
above something, and two negative (two positive) numbers neither of which is below the other are
the same float.  True of doubles, where only the two zeros are different and equal. -/
class LawfulOrder (F : Type) [FArith F] : Prop extends LawfulLt F where
  cotrans : ∀ x y z : F, FArith.lt x z = true →
    (y = FArith.zero ∨ FArith.lt y FArith.zero = true ∨ FArith.lt FArith.zero y = true) →
    FArith.lt x y = true ∨ FArith.lt y z = true
  tie_neg : ∀ x y : F, FArith.lt x FArith.zero = true → FArith.lt y FArith.zero = true →
    FArith.lt x y = false → FArith.lt y x = false → x = y
  tie_pos : ∀ x y : F, FArith.lt FArith.zero x = true → FArith.lt FArith.zero y = true →
    FArith.lt x y = false → FArith.lt y x = false → x = y

section
variable [FArith F]

/-- `v` is the least of `0.0` and the numbers in `P`. -/
def Lowest (v : F) (P : F → Prop) : Prop :=
  (∀ x, P x → FArith.lt x v = false) ∧
    (v = FArith.zero ∨ FArith.lt v FArith.zero = true ∧ P v)

/-- `v` is the greatest of `0.0` and the numbers in `P`. -/
def Highest (v : F) (P : F → Prop) : Prop :=
  (∀ x, P x → FArith.lt v x = false) ∧
    (v = FArith.zero ∨ FArith.lt FArith.zero v = true ∧ P v)

/-- `mn` .. `mx` is the box around the origin and the vectors in `P`. -/
def Hull (mn mx : Vec3 F) (P : Vec3 F → Prop) : Prop :=
  ∀ c, Lowest (mn.comp c) (fun t => ∃ x, P x ∧ x.comp c = t) ∧
    Highest (mx.comp c) (fun t => ∃ x, P x ∧ x.comp c = t)

/-- `mn` .. `mx` is the box around the boxes `mn1` .. `mx1` and `mn2` .. `mx2`. -/
def BoxAround (mn1 mx1 mn2 mx2 mn mx : Vec3 F) : Prop :=
  ∀ c, mn.comp c = (if FArith.lt (mn2.comp c) (mn1.comp c) then mn2.comp c else mn1.comp c) ∧
    mx.comp c = (if FArith.lt (mx1.comp c) (mx2.comp c) then mx2.comp c else mx1.comp c)

/-- Each lod and each material of `c` has the box around those of its counterparts in `a` and `b`. -/
def BoundsAround (a b c : Mesh F) : Prop :=
  List.Forall₂ (fun (p : Geom F × Geom F) (g : Geom F) =>
    List.Forall₂ (fun (q : Lod F × Lod F) (l : Lod F) =>
      BoxAround q.1.min q.1.max q.2.min q.2.max l.min l.max ∧
      List.Forall₂ (fun (r : Mat F × Mat F) (x : Mat F) =>
        ∃ mn1 mx1 mn2 mx2 mn mx, r.1.mmin = some mn1 ∧ r.1.mmax = some mx1 ∧
          r.2.mmin = some mn2 ∧ r.2.mmax = some mx2 ∧ x.mmin = some mn ∧ x.mmax = some mx ∧
          BoxAround mn1 mx1 mn2 mx2 mn mx)
        (q.1.materials.zip q.2.materials) l.materials)
      (p.1.lods.zip p.2.lods) g.lods) (a.geoms.zip b.geoms) c.geoms

end

/-- The bounds of a lod and of its materials. -/
def Lod.bounds (l : Lod F) : Vec3 F × Vec3 F × List (Option (Vec3 F) × Option (Vec3 F)) :=
  (l.min, l.max, l.materials.map fun a => (a.mmin, a.mmax))

end Bf2
