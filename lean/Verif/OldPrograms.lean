import Verif.OldScripts
import Verif.OldBox
import Verif.FloatCodec

/-!
# The scripts of `/repo/deprecated` as programs

`box_modify.main`, `mesh_order_fix.main`, `box_new.py`, and the functions of `mesh_read.py` that print.
A program is a function of the file system, with the current directory or the path as argument: what it
leaves in the file system, and the exception that ends it (`none` if it runs to its end).  What is printed
is modelled as data, one item for each call of `print` that shows something of the mesh; the text
made from it is not modelled, nor are the `print` calls that report progress.
-/

namespace Bf2

section
variable {F : Type}

/-! ## box_modify.py -/

/-- `print_vertex_data`, `box_modify.py:6-16`: the floats shown by each `print`, and the exception. -/
def printVertexData (m : OldMesh F) (vid u : Int) : List VAttr → List (List F) × Option Err
  | [] => ([], none)
  | a :: as =>
    match remAttr m.vertformat a with
    | .error e => ([], some e)
    | .ok (offset, vlen) =>
      let vstart := offset + vid * intTrueDiv m.vertstride m.vertformat
      match printVertexData m vid u as with
      | (out, e) => (if a.usage = u then pySlice m.vertices vstart (vstart + vlen) :: out else out, e)

/-- A statement that may raise, on the mesh it is given. -/
def andThen {α : Type} (r : α × Option Err) (f : α → α × Option Err) : α × Option Err :=
  match r with
  | (a, some e) => (a, some e)
  | (a, none) => f a

/-- The usages `UV1` to `UV4`, `modmesh.py:34-61`. -/
def uv1 : Int := 5
def uv2 : Int := 261
def uv3 : Int := 517
def uv4 : Int := 773

/-- `box_modify.py:128-136` on the mesh loaded; `half`, `one` are the floats 0.5 and 1.0. -/
def boxEdits (half one : F) (m : OldMesh F) : OldMesh F × Option Err :=
  andThen (m, (printVertexData m 24 uv1 m.vattrs).2) fun m =>
  andThen (removeVertice m 24) fun m =>
  andThen (removeAttribute (replaceIndex m 24 14) uv2) fun m =>
  andThen (removeAttribute m uv3) fun m =>
  andThen (removeAttribute m uv4) fun m =>
  editVertex m 14 uv1 [half, one]

end

/-- `box_modify.main`, `box_modify.py:120-138`, with the path loaded and the path saved to. -/
def boxModify {F : Type} [FCodec F] (half one : F) (pl : Plat) (fs : FS) (source target : Str) :
    FS × Option Err :=
  match oldLoadPath pl fs source with
  | .error e => (fs, some e)
  | .ok m =>
    match boxEdits half one m with
    | (_, some e) => (fs, some e)
    | (m', none) => oldSavePath pl fs m' target

/-- The path saved to, `box_modify.py:138`. -/
def boxModifyTarget : Str := "generated/generated_box/meshes/generated_box_edit.staticmesh".toList

/-! ## mesh_order_fix.py -/

/-- `mesh_order_fix.py:24` -/
def kitsOrder : List Int := [0, 1, 2, 3, 4, 5, 6, 7, 9, 8, 10, 11, 12, 13, 14, 15, 16]

/-- `mesh_order_fix.main`, `mesh_order_fix.py:21-27`. -/
def orderFix (F : Type) [FCodec F] (pl : Plat) (fs : FS) : FS × Option Err :=
  match oldLoadPath (F := F) pl fs "ch_kits.skinnedmesh".toList with
  | .error e => (fs, some e)
  | .ok m =>
    match orderGeomsBy m kitsOrder with
    | (_, some e) => (fs, some e)
    | (m', none) => oldSavePath pl fs m' "./ch_kits2.skinnedmesh".toList

/-! ## box_new.py -/

/-- `box_new.py:6-8` as it is meant, with the box itself for `pbox.vmesh`.  As written it ends with an
exception before that: there is no module `tests.mock_mesh`, and `Box` has no attribute `vmesh`. -/
def boxNew (pl : Plat) (fs : FS) : FS × Option Err :=
  oldSavePath pl fs mockBox "generated/generated_box/meshes/generated_box.staticmesh".toList

/-! ## mesh_read.py -/

section
variable {F : Type}

/-- What one `print` of `display_mesh_data` shows. -/
inductive Shown (F : Type)
  | attr (usage vartype : Int)
  | vertex (i vstart : Int) (data : List F)
  | indices
  | corner (id : Int) (data : List F)
  | blank
  deriving DecidableEq, Repr

/-- `mesh_read.py:6-17` -/
def displayAttrs (m : OldMesh F) : List VAttr → List (Shown F) × Option Err
  | [] => ([], none)
  | a :: as =>
    match remAttr m.vertformat a with
    | .error e => ([], some e)
    | .ok (offset, vlen) =>
      match displayAttrs m as with
      | (out, e) =>
        (.attr a.usage a.vartype :: (List.range m.vertnum.toNat).map (fun i : Nat =>
            let vstart := offset + (i : Int) * intTrueDiv m.vertstride m.vertformat
            .vertex i vstart (pySlice m.vertices vstart (vstart + vlen))) ++ out, e)

/-- `mesh_read.py:21-29`, with `face_vid`. -/
def displayIndex (m : OldMesh F) : Nat → List Int → List (Shown F) × Option Err
  | _, [] => ([], none)
  | f, id :: ids =>
    if m.vertformat = 0 then ([], some .zeroDivisionError)
    else
      let vstart := id * intTrueDiv m.vertstride m.vertformat
      let line := .corner id (pySlice m.vertices vstart (vstart + 3))
      match displayIndex m (if f + 1 = 3 then 0 else f + 1) ids with
      | (out, e) => (if f + 1 = 3 then line :: .blank :: out else line :: out, e)

/-- `display_mesh_data`, `mesh_read.py:5-29`. -/
def displayMesh (m : OldMesh F) : List (Shown F) × Option Err :=
  match displayAttrs m m.vattrs with
  | (out, some e) => (out, some e)
  | (out, none) =>
    match displayIndex m 0 m.index with
    | (out', e) => (out ++ .indices :: out', e)

end

end Bf2
