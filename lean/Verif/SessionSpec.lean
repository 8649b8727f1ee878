import Verif.HistorySpec
import Verif.ObjectSpec

/-!
# Specification vocabulary for sessions

A session is a program that opens meshes, edits them and exports them, in any order and number; an
exception ends a call, not the session.
-/

namespace Bf2

/-- The file system, and the mesh objects the program holds, in the order they were opened. -/
structure Session where
  fs : FS
  objs : List (Obj F64)

/-- One call, the place it may write to, and the session afterwards.  Opened meshes are in good order.
`edit` is any call of `Step`, so merging may be with another mesh of the session.  `export` may raise;
its place is what the target names afterwards. -/
inductive Call [Libm F64] (pl : Plat) (s : Session) : Option Loc → Session → Prop
  | opened {name : Option Str} {fl : Flags} {o : Obj F64} {vs : Nat}
      (h : construct pl s.fs name fl = .ok o) (orderly : Orderly vs o.mesh) :
      Call pl s none ⟨s.fs, s.objs ++ [o]⟩
  | entered {i : Nat} {o : Obj F64} (hi : s.objs[i]? = some o) {o' : Obj F64}
      (h : o.enter pl s.fs = .ok o') : Call pl s none ⟨s.fs, s.objs.set i o'⟩
  | edit {i : Nat} {o : Obj F64} (hi : s.objs[i]? = some o) {m : Mesh F64} (h : Step o.mesh m) :
      Call pl s none ⟨s.fs, s.objs.set i { o with mesh := m }⟩
  | exported {i : Nat} {o : Obj F64} (hi : s.objs[i]? = some o) {name : Option Str} {u : Bool}
      {fs' : FS} {o' : Obj F64} {r : Option Err} (h : exportObj pl s.fs o name u = (fs', o', r)) :
      Call pl s (fs'.resolve (exportName o.filename name)).toOption ⟨fs', s.objs.set i o'⟩

/-- Any number of calls, with the places they may have written to. -/
inductive Run [Libm F64] (pl : Plat) (s : Session) : List Loc → Session → Prop
  | start : Run pl s [] s
  | call {ts : List Loc} {s1 s2 : Session} {t : Option Loc} (before : Run pl s ts s1)
      (h : Call pl s1 t s2) : Run pl s (ts ++ t.toList) s2

/-- All meshes are loaded and in good order. -/
def Ready (s : Session) : Prop := ∀ o ∈ s.objs, o.isLoaded = true ∧ ∃ vs, Orderly vs o.mesh

end Bf2
