import Verif.OldEdit
import Verif.VecOps

/-!
# A program among the old tests: two pieces of a road joined

`test_can_merge_statics_from_GPO`, `deprecated/tests_vismesh_edit.py:109-145`, up to saving.  The two
positions and rotations, constants there, are parameters; the mesh loaded twice is given once.
-/

namespace Bf2

variable {F : Type} [FArith F] [Libm F] [FDiv F]

/-- `(min + max) / 2`, `tests_vismesh_edit.py:131-133` -/
def boxMiddle (mn mx : Vec3 F) : Vec3 F :=
  let s := mn.add mx
  ⟨FArith.half s.x, FArith.half s.y, FArith.half s.z⟩

/-- `tests_vismesh_edit.py:121-138`: what becomes of `vmesh1`. -/
def joinStatics (position1 position2 : Vec3 F) (rotation1 rotation2 : List F) (m : OldMesh F) :
    OldMesh F × Option Err :=
  match oldRotate m rotation1 with
  | (m1, some e) => (m1, some e)
  | (m1, none) =>
    match oldRotate m rotation2 with
    | (_, some e) => (m1, some e)
    | (m2, none) =>
      match oldTranslate m2 (position2.sub position1).toList with
      | (_, some e) => (m1, some e)
      | (m2, none) =>
        match oldMerge m1 m2 with
        | (c, some e) => (c, some e)
        | (c, none) =>
          match c.geoms[0]? with
          | none => (c, some .indexError)
          | some g =>
            match g.lods[0]? with
            | none => (c, some .indexError)
            | some l => oldTranslate c (boxMiddle l.min l.max).neg.toList

end Bf2
