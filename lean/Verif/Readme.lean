import Verif.Object

/-!
# The programs of the README

`README.md:7-54` shows three programs that use the package.  They are modelled as functions of the
file system, with the file names, the order and the offset as arguments: what the program leaves in
the file system, and the exception that ends it (`none` if it runs to its end).  The third program is
not indented as Python wants it (`README.md:49-52`: the body of the inner `with` is not indented); it
is modelled as it was meant.
-/

namespace Bf2

section
variable {F : Type} [FCodec F] [FArith F]

/-- `VisibleMesh(filename)`: no keyword arguments (`visiblemesh.py:28-36`). -/
def openMesh (pl : Plat) (fs : FS) (filename : Str) : Except Err (Obj F) :=
  construct pl fs (some filename) ⟨false, false, false⟩

/-- `with VisibleMesh(filename) as …` (`visiblemesh.py:70-80`: leaving the block does nothing). -/
def withMesh (pl : Plat) (fs : FS) (filename : Str) : Except Err (Obj F) :=
  match openMesh pl fs filename with
  | .error e => .error e
  | .ok o => o.enter pl fs

/-- `vmesh.export(filename)` (`update_bounds` is true by default), as the last statement. -/
def exportLast (pl : Plat) (fs : FS) (o : Obj F) (filename : Str) : FS × Option Err :=
  match exportObj pl fs o (some filename) true with
  | (fs', _, e) => (fs', e)

/-- `README.md:12-24` -/
def reorderProgram (F : Type) [FCodec F] [FArith F] (pl : Plat) (fs : FS) (filename : Str)
    (order : List Int) : FS × Option Err :=
  match openMesh (F := F) pl fs filename with
  | .error e => (fs, some e)
  | .ok o =>
    match changeGeomsOrder o.mesh order with
    | (_, some e) => (fs, some e)
    | (m, none) => exportLast pl fs { o with mesh := m } filename

/-- `README.md:32-38` -/
def offsetProgram (pl : Plat) (fs : FS) (filename target : Str) (offset : List F) :
    FS × Option Err :=
  match withMesh pl fs filename with
  | .error e => (fs, some e)
  | .ok o =>
    match translate o.mesh offset with
    | (_, some e) => (fs, some e)
    | (m, none) => exportLast pl fs { o with mesh := m } target

/-- `README.md:48-53` -/
def mergeProgram (F : Type) [FCodec F] [FArith F] (pl : Plat) (fs : FS) (main secondary target : Str) :
    FS × Option Err :=
  match withMesh (F := F) pl fs main with
  | .error e => (fs, some e)
  | .ok o =>
    match withMesh (F := F) pl fs secondary with
    | .error e => (fs, some e)
    | .ok o2 =>
      match merge o.mesh o2.mesh with
      | (_, .error e) => (fs, some e)
      | (m, .ok _) => exportLast pl fs { o with mesh := m } target

end

end Bf2
