import Verif.ColMesh

/-! # Merging several collision meshes into one, one after the other -/

namespace Bf2

variable {F : Type} [FArith F]

/-- `for b in bs: a.merge(b)` with `ColMesh.merge`, `modcolmesh.py:429-431`; no `b` is `a` itself. -/
def colMergeAll (h : Heap) (a : ColMesh F Nat) : List (ColMesh F Nat) → Heap × ColMesh F Nat × Option Err
  | [] => (h, a, none)
  | b :: bs =>
    match colMerge h a b with
    | (h', a', some e) => (h', a', some e)
    | (h', a', none) => colMergeAll h' a' bs

end Bf2
