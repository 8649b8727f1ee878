import Verif.HistorySpec
import Verif.RotErrorSpec

/-!
# Moves, turns and saves of one mesh

What a list of edits would do to a vector in exact arithmetic, and how far rounding may take it from
there.
-/

namespace Bf2

/-- An edit that leaves vertices where they are in the list: `translate`, `rotate`,
`update_boundaries`, and `export` with loading the file again. -/
inductive Act where
  | move (d : Vec3 F64)
  | turn (yaw pitch roll : F64)
  | update
  | store

/-- One edit, raising nothing. -/
inductive Does [Libm F64] : Mesh F64 → Act → Mesh F64 → Prop
  | move {m m' : Mesh F64} {d : Vec3 F64} : translate m [d.x, d.y, d.z] = (m', none) → Does m (.move d) m'
  | turn {m m' : Mesh F64} {y p r : F64} : rotate m [y, p, r] = (m', none) → Does m (.turn y p r) m'
  | update {m m' : Mesh F64} : updateBoundaries m = (m', none) → Does m .update m'
  | store {m m' : Mesh F64} {pl : Plat} {file : Bytes} : exportMesh pl m = ⟨file, none⟩ →
      load pl m.kind file = .ok m' → Does m .store m'

/-- One edit after the other. -/
inductive Runs [Libm F64] : Mesh F64 → List Act → Mesh F64 → Prop
  | nil {m : Mesh F64} : Runs m [] m
  | cons {m m1 m2 : Mesh F64} {s : Act} {ss : List Act} : Does m s m1 → Runs m1 ss m2 → Runs m (s :: ss) m2

noncomputable section

/-- What an edit does to an exact vector; only positions are moved. -/
def Act.exact (pos : Bool) : Act → (Fin 3 → ℝ) → Fin 3 → ℝ
  | .move d, X => if pos then X + d.real.fn else X
  | .turn y p r, X => (rotMat y.value p.value r.value).mulVec X
  | .update, X => X
  | .store, X => X

/-- What a list of edits does to it. -/
def exactAll (pos : Bool) (ss : List Act) (X : Fin 3 → ℝ) : Fin 3 → ℝ :=
  ss.foldl (fun X s => s.exact pos X) X

/-- Euclidean length. -/
def norm3 (X : Fin 3 → ℝ) : ℝ := √(X 0 ^ 2 + X 1 ^ 2 + X 2 ^ 2)

/-- How far one edit may take a vector of length at most `B` from the exact one, with cosines and sines
that are off by `ε`. -/
def Act.error (ε B : ℝ) : Act → ℝ
  | .move _ => 2 ^ (-51 : ℤ) * B + 2 ^ (-1074 : ℤ)
  | .turn _ _ _ => 4 * (15 * ε + 2 ^ (-47 : ℤ)) * B + 2 ^ (-1069 : ℤ)
  | .update => 0
  | .store => 2 ^ (-22 : ℤ) * B + 2 ^ (-149 : ℤ)

/-- Distances are finite, angles have the cosine and sine that they should have up to `ε`. -/
def Act.Fine [Libm F64] (ε : ℝ) : Act → Prop
  | .move d => d.Finite
  | .turn y p r => TrigWithin ε y ∧ TrigWithin ε p ∧ TrigWithin ε r
  | .update => True
  | .store => True

end

end Bf2
