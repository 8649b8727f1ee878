import Verif.Edit

/-!
# The editing methods of `/repo/bf2mesh/visiblemesh.py` on meshes that hold one geom object twice

`change_geoms_order` puts the geom objects themselves into the new list (`visiblemesh.py:261-273`), so
an order that names a geom twice makes `self.geoms` hold one object in two places, and a later loop
over `self.geoms` sees at the second place what it did at the first.  The other model (`Edit`) has a
list of geom values.  Here `self.geoms` is a list of references to geom objects; what is done with one
geom is taken from `Edit`.  Lods and materials are never shared: no method copies references to them.
-/

namespace Bf2

variable {F : Type}

/-- A mesh whose `self.geoms` holds references: `mesh.geoms` are the geom objects, and the element `i`
of `self.geoms` is the object number `slots[i]`. -/
structure Shared (F : Type) where
  mesh : Mesh F
  slots : List Nat

/-- What is seen when the mesh is read: the values of the referenced objects.  This is also what
`canMerge`, `export` and the comparisons read. -/
def Shared.look (s : Shared F) : Mesh F :=
  { s.mesh with geoms := s.slots.filterMap fun j => s.mesh.geoms[j]? }

/-- Every reference is to one of the objects. -/
def Shared.Valid (s : Shared F) : Prop := ∀ j ∈ s.slots, j < s.mesh.geoms.length

/-- `load` makes a new object for every geom (`visiblemesh.py:149`). -/
def Shared.loaded (m : Mesh F) : Shared F := ⟨m, List.range m.geoms.length⟩

/-- `for x in xs: ...` where the body may change the object `x`; `xs` are references into `os`. -/
def travAt {σ α : Type} (f : σ → α → σ × α × Option Err) :
    σ → List α → List Nat → σ × List α × Option Err
  | s, os, [] => (s, os, none)
  | s, os, j :: js =>
    match os[j]? with
    | none => (s, os, some .indexError)
    | some a =>
      match f s a with
      | (s', a', some e) => (s', os.set j a', some e)
      | (s', a', none) => travAt f s' (os.set j a') js

/-- The same with `enumerate` and `ys[i]`. -/
def travAt2 {σ α β : Type} (f : σ → α → β → σ × α × Option Err) :
    σ → List α → List Nat → List β → σ × List α × Option Err
  | s, os, [], _ => (s, os, none)
  | s, os, _ :: _, [] => (s, os, some .indexError)
  | s, os, j :: js, b :: bs =>
    match os[j]? with
    | none => (s, os, some .indexError)
    | some a =>
      match f s a b with
      | (s', a', some e) => (s', os.set j a', some e)
      | (s', a', none) => travAt2 f s' (os.set j a') js bs

/-! ## Calls -/

/-- What a call returns. -/
inductive CallRet (F : Type)
  | none
  | point (p : Vec3 F)
  | notImplemented
  deriving DecidableEq

/-- A call of one of the editing methods. -/
inductive EditCall (F : Type)
  | translate (offset : List F)
  | rotate (rotation : List F)
  | update
  | center (geomId lodId : Int) (updateBounds : Bool)
  | reorder (order : List Int)
  | merge (other : Mesh F)
  | mergeSelf

/-- The outcome of a method that returns nothing. -/
def outcome {α : Type} (r : α × Option Err) : α × Except Err (CallRet F) :=
  match r with
  | (m, some e) => (m, .error e)
  | (m, none) => (m, .ok .none)

/-- The outcome of `get_lod_center_offset`. -/
def outcomePoint {α : Type} (r : α × Except Err (Vec3 F)) : α × Except Err (CallRet F) :=
  match r with
  | (m, .error e) => (m, .error e)
  | (m, .ok p) => (m, .ok (.point p))

/-- The outcome of `merge`. -/
def outcomeMerge {α : Type} (r : α × Except Err MergeRet) : α × Except Err (CallRet F) :=
  match r with
  | (m, .error e) => (m, .error e)
  | (m, .ok .done) => (m, .ok .none)
  | (m, .ok .notImplemented) => (m, .ok .notImplemented)

variable [FArith F] [Libm F]

/-- The call in the model without references. -/
def EditCall.run (m : Mesh F) : EditCall F → Mesh F × Except Err (CallRet F)
  | .translate d => outcome (Bf2.translate m d)
  | .rotate r => outcome (Bf2.rotate m r)
  | .update => outcome (updateBoundaries m)
  | .center g l u => outcomePoint (getLodCenterOffset m g l u)
  | .reorder order => outcome (changeGeomsOrder m order)
  | .merge o => outcomeMerge (Bf2.merge m o)
  | .mergeSelf => outcomeMerge (Bf2.mergeSelf m)

/-! ## The methods with references -/

/-- `self.vertices = tuple(new_vertices)`; `r` is the outcome for the mesh that is seen. -/
def Shared.setVerts (s : Shared F) (r : Mesh F × Option Err) : Shared F × Option Err :=
  (⟨{ s.mesh with vertices := r.1.vertices }, s.slots⟩, r.2)

/-- `visiblemesh.py:279-314`: the loops only read the geoms. -/
def Shared.translate (s : Shared F) (offset : List F) : Shared F × Option Err :=
  s.setVerts (Bf2.translate s.look offset)

/-- `visiblemesh.py:316-398`: the loops only read the geoms. -/
def Shared.rotate (s : Shared F) (rotation : List F) : Shared F × Option Err :=
  s.setVerts (Bf2.rotate s.look rotation)

/-- `visiblemesh.py:547-594` -/
def Shared.updateBoundaries (s : Shared F) : Shared F × Option Err :=
  match travAt (boundGeom s.mesh) () s.mesh.geoms s.slots with
  | (_, os, e) => (⟨{ s.mesh with geoms := os }, s.slots⟩, e)

/-- The lod with number `p.2` of the object that `self.geoms[p.1]` is. -/
def Shared.lodAt (s : Shared F) (p : Nat × Nat) : Option (Lod F) :=
  match s.slots[p.1]? with
  | none => none
  | some j =>
    match s.mesh.geoms[j]? with
    | none => none
    | some g => g.lods[p.2]?

/-- `visiblemesh.py:534-544` -/
def Shared.getLodCenterOffset (s : Shared F) (geomId lodId : Int) (updateBounds : Bool) :
    Shared F × Except Err (Vec3 F) :=
  match lodPos s.look geomId lodId with
  | none => (s, .error .indexError)
  | some p =>
    match (if updateBounds then s.updateBoundaries else (s, none)) with
    | (s', some e) => (s', .error e)
    | (s', none) =>
      match s'.lodAt p with
      | none => (s', .error .indexError)
      | some l => (s', .ok l.center)

omit [FArith F] [Libm F] in
/-- `visiblemesh.py:261-273`: `self.geoms[geomId]` is the object number `slots[i]`; `order` of the
result are the references in `new_geoms`. -/
def reorderAt (vs : Nat) (m : Mesh F) (slots : List Nat) :
    List (Geom F) → Arrays F → List Int → Reordered F
  | os, s, [] => ⟨os, s, [], none⟩
  | os, s, id :: ids =>
    match pyGet slots id with
    | none => ⟨os, s, [], some .indexError⟩
    | some j =>
      match os[j]? with
      | none => ⟨os, s, [], some .indexError⟩
      | some g =>
        match reorderGeom vs m s g with
        | (s', g', some e) => ⟨os.set j g', s', [], some e⟩
        | (s', g', none) =>
          match reorderAt vs m slots (os.set j g') s' ids with
          | ⟨os', s'', js, e⟩ => ⟨os', s'', j :: js, e⟩

omit [FArith F] [Libm F] in
/-- `visiblemesh.py:251-277` -/
def Shared.changeGeomsOrder (s : Shared F) (order : List Int) : Shared F × Option Err :=
  if order.length ≠ s.slots.length then (s, some .attributeError)
  else
    match vertexSize s.mesh.vattrs with
    | .error e => (s, some e)
    | .ok vs =>
      match reorderAt vs s.mesh s.slots s.mesh.geoms ⟨[], []⟩ order with
      | ⟨os, _, _, some e⟩ => (⟨{ s.mesh with geoms := os }, s.slots⟩, some e)
      | ⟨os, a, js, none⟩ =>
        (⟨{ s.mesh with geoms := os, vertices := a.vertices, index := .many a.index }, js⟩, none)

omit [FArith F] [Libm F] in
/-- `visiblemesh.py:525-532` -/
def Shared.mergeFinish (s : Shared F) (os : List (Geom F)) (st : MergeSt F) :
    Shared F × Except Err MergeRet :=
  match Bf2.mergeFinish s.mesh os st with
  | (m, r) => (⟨m, s.slots⟩, r)

omit [FArith F] [Libm F] in
/-- `visiblemesh.py:443-532`, with `other` a mesh that has no object in common with this one; it is
only read. -/
def Shared.merge (s : Shared F) (o : Mesh F) : Shared F × Except Err MergeRet :=
  match canMerge s.look o with
  | .error e => (s, .error e)
  | .ok false => (s, .ok .notImplemented)
  | .ok true =>
    match travAt2 (mergeGeom s.mesh o) ⟨[], [], 0, 0, 0, 0⟩ s.mesh.geoms s.slots o.geoms with
    | (_, os, some e) => (⟨{ s.mesh with geoms := os }, s.slots⟩, .error e)
    | (st, os, none) => s.mergeFinish os st

omit [FArith F] [Libm F] in
/-- `visiblemesh.py:443-532` called as `mesh.merge(mesh)`. -/
def Shared.mergeSelf (s : Shared F) : Shared F × Except Err MergeRet :=
  match canMerge s.look s.look with
  | .error e => (s, .error e)
  | .ok false => (s, .ok .notImplemented)
  | .ok true =>
    match travAt (mergeGeomSelf s.mesh) ⟨[], [], 0, 0, 0, 0⟩ s.mesh.geoms s.slots with
    | (_, os, some e) => (⟨{ s.mesh with geoms := os }, s.slots⟩, .error e)
    | (st, os, none) => s.mergeFinish os st

/-- The call in the model with references. -/
def EditCall.runShared (s : Shared F) : EditCall F → Shared F × Except Err (CallRet F)
  | .translate d => outcome (s.translate d)
  | .rotate r => outcome (s.rotate r)
  | .update => outcome s.updateBoundaries
  | .center g l u => outcomePoint (s.getLodCenterOffset g l u)
  | .reorder order => outcome (s.changeGeomsOrder order)
  | .merge o => outcomeMerge (s.merge o)
  | .mergeSelf => outcomeMerge s.mergeSelf

/-- One call after the other, whether or not they raise (the caller catches); the outcome of each. -/
def runCalls {σ : Type} (step : σ → EditCall F → σ × Except Err (CallRet F)) :
    σ → List (EditCall F) → σ × List (Except Err (CallRet F))
  | s, [] => (s, [])
  | s, c :: cs =>
    match step s c with
    | (s', r) =>
      match runCalls step s' cs with
      | (s'', rs) => (s'', r :: rs)

end Bf2
