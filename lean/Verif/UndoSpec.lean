import Verif.AlignSpec

/-!
# Undoing edits (C184)
-/

namespace Bf2

/-- The negated double, with zero written as `0.0`. -/
def F64.opposite (t : F64) : F64 := if t = F64.zero then t else t.negate

/-- The calls that undo an edit: a move by the opposite distances, and for a turn three calls that take back yaw,
pitch and roll one after the other. -/
def Act.undo : Act → List Act
  | .move d => [.move ⟨d.x.opposite, d.y.opposite, d.z.opposite⟩]
  | .turn y p r => [.turn y.negate F64.zero F64.zero, .turn F64.zero p.negate F64.zero, .turn F64.zero F64.zero r.negate]
  | .update => []
  | .store => []

/-- The calls that undo a list of edits, the last edit first. -/
def undoAll (ss : List Act) : List Act := ss.reverse.flatMap Act.undo

/-- The same for a collision mesh. -/
def ColAct.undo : ColAct → List ColAct
  | .move d => [.move ⟨d.x.opposite, d.y.opposite, d.z.opposite⟩]
  | .store => []

def colUndoAll (ss : List ColAct) : List ColAct := ss.reverse.flatMap ColAct.undo

end Bf2
