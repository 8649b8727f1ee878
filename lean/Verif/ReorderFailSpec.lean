import Verif.EditSpec

/-! # Where a reorder stops -/

namespace Bf2

variable {F : Type}

/-- Reordering stops with `e` at an id, when a vertex has `vs` floats: it names no geom; or it names one with
a material while the index array is a bare int, or while a vertex has no floats. -/
inductive Stops (vs : Nat) (m : Mesh F) (id : Int) : Err → Prop
  | noGeom : (∀ j, ¬ Names m.geoms.length id j) → Stops vs m id .indexError
  | oneIndex {j : Nat} {g : Geom F} {v : Int} : Names m.geoms.length id j → m.geoms[j]? = some g →
      g.mats ≠ [] → m.index = .one v → Stops vs m id .typeError
  | noFloats {j : Nat} {g : Geom F} {ix : List Int} : Names m.geoms.length id j → m.geoms[j]? = some g →
      g.mats ≠ [] → m.index = .many ix → vs = 0 → Stops vs m id .zeroDivisionError

/-- The id in place `k` is the first at which reordering stops. -/
def FirstStop (vs : Nat) (m : Mesh F) (order : List Int) (k : Nat) (e : Err) : Prop :=
  ∃ id, order[k]? = some id ∧ Stops vs m id e ∧
    ∀ (i : Nat) id e, i < k → order[i]? = some id → ¬ Stops vs m id e

/-- A geom without the places of its data in the arrays. -/
def Geom.unplaced (g : Geom F) : Geom F :=
  { g with lods := g.lods.map fun l =>
      { l with materials := l.materials.map fun a => { a with vstart := 0, istart := 0 } } }

end Bf2
