import Verif.Object

/-!
# The kind of a mesh on Windows

`Object.lean` takes `os.path` for `posixpath`.  On Windows it is `ntpath`, where a backslash separates the
parts of a path as a slash does.  `mesh.py:10` is the only place of the package where this decides what a file
is taken for.
-/

namespace Bf2

/-- `ntpath.splitext(p)[1]`: `genericpath._splitext` with separators `\` and `/`. -/
def ntSplitextExt (p : Str) : Str :=
  let sep := max (rfind '\\' p) (rfind '/' p)
  let dot := rfind '.' p
  if dot > sep then
    (if notOnlyDots (pySlice p (sep + 1) dot) then p.drop dot.toNat else [])
  else []

/-- `mesh.py:10-15` on Windows. -/
def ntKindOfName (filename : Str) : Kind :=
  let ext := lower (ntSplitextExt filename)
  ⟨ext = ".skinnedmesh".toList, ext = ".bundledmesh".toList, ext = ".staticmesh".toList,
   ext = ".collisionmesh".toList⟩

end Bf2
