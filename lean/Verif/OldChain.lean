import Verif.OldEdit

/-!
# Merging many meshes in a row with the deprecated module

The loop a user of `VisMesh.merge` (`deprecated/modmesh.py:741-792`) writes to join several meshes:

    for other in others:
        mesh.merge(other)
-/

namespace Bf2

variable {F : Type}

/-- The loop: it stops at the first exception. -/
def oldMergeEach [FArith F] (m : OldMesh F) : List (OldMesh F) → OldMesh F × Option Err
  | [] => (m, none)
  | o :: os =>
    match oldMerge m o with
    | (m', some e) => (m', some e)
    | (m', none) => oldMergeEach m' os

end Bf2
