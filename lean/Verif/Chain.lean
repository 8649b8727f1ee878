import Verif.Edit

/-!
# Merging many meshes in a row

The loop a user of `VisibleMesh.merge` (`visiblemesh.py:442-508`) writes to join several meshes:

    for other in others:
        mesh.merge(other)
-/

namespace Bf2

variable {F : Type}

/-- The loop: it stops at the first exception; what `merge` returns is not looked at. -/
def mergeEach (m : Mesh F) : List (Mesh F) → Mesh F × Option Err
  | [] => (m, none)
  | o :: os =>
    match merge m o with
    | (m', .error e) => (m', some e)
    | (m', .ok _) => mergeEach m' os

end Bf2
