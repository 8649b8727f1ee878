import Verif.RaiseLemmas
import Verif.Props.Frame
import Verif.Props.Format
import Verif.Props.Rotate
import Verif.Sample

/-!
# C146: which exceptions the editing methods raise on loaded meshes

The table is `EditCall.mayRaise`.
-/

namespace Bf2

section session
variable {F : Type} [FCodec F] [FArith F] [Libm F]

/-- **C146.** In any sequence of calls on a mesh that was loaded from a file, each call returns or raises one
of the exceptions in its line of the table. -/
theorem C146_session {pl : Plat} {k : Kind} {file : Bytes} {m : Mesh F} (loaded : load pl k file = .ok m)
    (cs : List (EditCall F)) (i : Nat) (e : Err)
    (h : (runCalls EditCall.runShared (Shared.loaded m) cs).2[i]? = some (.error e)) :
    ∃ c, cs[i]? = some c ∧ e ∈ c.mayRaise := by
  have format := (C06_loaded_wf pl k file m loaded).1.vertformat
  have go : ∀ (cs : List (EditCall F)) (s : Shared F) (i : Nat), s.Valid → s.mesh.vertformat ≠ 0 →
      (runCalls EditCall.runShared s cs).2[i]? = some (.error e) → ∃ c, cs[i]? = some c ∧ e ∈ c.mayRaise := by
    intro cs
    induction cs with
    | nil => intro s i _ _ h; cases h
    | cons c cs ih =>
      intro s i hv hf h
      rcases i with _ | i
      · exact ⟨c, rfl, runShared_raises hv hf (by simpa [runCalls] using h)⟩
      · refine ih (c.runShared s).1 i (runShared_valid hv c) ?_ (by simpa [runCalls] using h)
        rw [(runShared_frame s (keeps_info c)).2.format.vertformat]
        exact hf
  exact go cs _ i (loaded_valid m) format h

end session

/-! ## Each of them happens -/

/-- A static mesh of one geom with one material, that has one vertex. -/
def probe (attrs : List VAttr) (verts : List F64) (inum : Int) (index : OneOrMany Int) : Mesh F64 :=
  { meshOf (flt 0) attrs (4 * verts.length) 1 [[(0, 1, 0, inum)]] verts index.elems with index := index }

/-- The same of version 11, with a box for the material. -/
def probe11 (attrs : List VAttr) (verts : List F64) : Mesh F64 :=
  let m := probe attrs verts 2 (.many [0, 0])
  let z : Vec3 F64 := ⟨flt 0, flt 0, flt 0⟩
  { m with
    head := { m.head with version := 11 }
    geoms := m.geoms.map fun g => { g with lods := g.lods.map fun l =>
      { l with materials := l.materials.map fun a => { a with mmin := some z, mmax := some z } } } }

/-- A file that loads as `m`. -/
def Loads (m : Mesh F64) : Prop := ∃ file, load win m.kind file = .ok m

def float3Pos : List VAttr := [⟨0, 0, 2, 0⟩]
def one23 : List F64 := [flt 1, flt 2, flt 3]

/-- Position of three floats. -/
def fine : Mesh F64 := probe float3Pos one23 2 (.many [0, 0])
/-- An attribute of a type that does not exist. -/
def badType : Mesh F64 := probe [⟨0, 0, 99, 0⟩] one23 2 (.many [0, 0])
/-- No position. -/
def noPosition : Mesh F64 := probe11 [⟨0, 0, 2, 3⟩] one23
/-- A position of two floats. -/
def shortPosition : Mesh F64 := probe11 [⟨0, 0, 1, 0⟩] [flt 1, flt 2]
/-- One index. -/
def oneIndex : Mesh F64 := probe float3Pos one23 1 (.one 0)
/-- No attributes. -/
def noAttributes : Mesh F64 := probe [] [] 2 (.many [0, 0])
/-- A material that claims more indices than there are. -/
def fewIndices : Mesh F64 := probe float3Pos one23 5 (.many [0, 0])
/-- The largest index. -/
def bigIndex : Mesh F64 := probe float3Pos one23 2 (.many [65535, 0])

theorem loads_of {m : Mesh F64} (h : load win m.kind (exportMesh win m).bytes = .ok m) : Loads m := ⟨_, h⟩

/-- All of them are loaded from files. -/
theorem probes_load : Loads fine ∧ Loads badType ∧ Loads noPosition ∧ Loads shortPosition ∧ Loads oneIndex ∧
    Loads noAttributes ∧ Loads fewIndices ∧ Loads bigIndex := by
  refine ⟨loads_of ?_, loads_of ?_, loads_of ?_, loads_of ?_,
    ⟨(exportMesh win { oneIndex with index := .many [0] }).bytes, ?_⟩, loads_of ?_, loads_of ?_,
    loads_of ?_⟩ <;> decide +kernel

theorem outcome_error {α : Type} {r : α × Option Err} {e : Err} (h : r.2 = some e) :
    (outcome (F := F64) r).2 = .error e := by
  rcases r with ⟨t, _ | e'⟩ <;> cases h
  rfl

theorem outcomePoint_error {α : Type} {r : α × Except Err (Vec3 F64)} {e : Err} (h : r.2 = .error e) :
    (outcomePoint r).2 = .error e := by
  rcases r with ⟨t, e' | _⟩ <;> cases h
  rfl

/-- A session on a loaded mesh in which every call raises, each something else. -/
example :
    let _ := quarterTurn
    Loads fine ∧ (runCalls EditCall.runShared (Shared.loaded fine)
      [.reorder [], .translate [flt 1, flt 1, flt 1, flt 1], .merge oneIndex]).2 =
        [.error .attributeError, .error .indexError, .error .typeError] :=
  ⟨probes_load.1, by decide +kernel⟩

variable [Libm F64]

/-- What a first call on a loaded mesh raises. -/
def FirstRaises (c : EditCall F64) (e : Err) : Prop :=
  ∃ m, Loads m ∧ (c.runShared (Shared.loaded m)).2 = .error e

/-- **C146.** No line of the table is too long, whatever the C library computes. -/
theorem C146_attained :
    (∀ e ∈ (EditCall.translate (F := F64) []).mayRaise, ∃ d, FirstRaises (.translate d) e) ∧
    (∀ e ∈ (EditCall.rotate (F := F64) []).mayRaise, ∃ r, FirstRaises (.rotate r) e) ∧
    (∀ e ∈ (EditCall.update (F := F64)).mayRaise, FirstRaises .update e) ∧
    (∀ u, ∀ e ∈ (EditCall.center (F := F64) 0 0 u).mayRaise, ∃ g l, FirstRaises (.center g l u) e) ∧
    (∀ e ∈ (EditCall.reorder (F := F64) []).mayRaise, ∃ order, FirstRaises (.reorder order) e) ∧
    (∀ e ∈ (EditCall.merge fine).mayRaise, ∃ o, Loads o ∧ FirstRaises (.merge o) e) ∧
    ∀ e ∈ (EditCall.mergeSelf (F := F64)).mayRaise, FirstRaises .mergeSelf e := by
  obtain ⟨h1, h2, h3, h4, h5, h6, h7, h8⟩ := probes_load
  refine ⟨?_, ?_, ?_, ?_, ?_, ?_, ?_⟩
  · simp only [EditCall.mayRaise, List.forall_mem_cons]
    exact ⟨⟨[], badType, h2, rfl⟩, ⟨[flt 1], noPosition, h3, rfl⟩,
      ⟨[flt 1, flt 1, flt 1, flt 1], fine, h1, outcome_error (by decide +kernel)⟩, by simp⟩
  · simp only [EditCall.mayRaise, List.forall_mem_cons]
    exact ⟨⟨[flt 1, flt 1, flt 1], badType, h2, rfl⟩, ⟨[], fine, h1, rfl⟩, by simp⟩
  · simp only [EditCall.mayRaise, List.forall_mem_cons]
    exact ⟨⟨badType, h2, rfl⟩, ⟨noPosition, h3, rfl⟩, ⟨shortPosition, h4, outcome_error (by decide +kernel)⟩, by simp⟩
  · rintro (_ | _) <;> simp only [EditCall.mayRaise, List.forall_mem_cons]
    · exact ⟨⟨7, 0, fine, h1, rfl⟩, by simp⟩
    · exact ⟨⟨0, 0, badType, h2, rfl⟩, ⟨0, 0, noPosition, h3, rfl⟩,
        ⟨0, 0, shortPosition, h4, outcomePoint_error (by decide +kernel)⟩, by simp⟩
  · simp only [EditCall.mayRaise, List.forall_mem_cons]
    exact ⟨⟨[], fine, h1, rfl⟩, ⟨[0], badType, h2, rfl⟩, ⟨[0], oneIndex, h5, rfl⟩, ⟨[7], fine, h1, rfl⟩,
      ⟨[0], noAttributes, h6, rfl⟩, by simp⟩
  · simp only [EditCall.mayRaise, List.forall_mem_cons]
    exact ⟨⟨oneIndex, h5, oneIndex, h5, rfl⟩, ⟨badType, h2, badType, h2, rfl⟩,
      ⟨fewIndices, h7, fewIndices, h7, rfl⟩, ⟨bigIndex, h8, bigIndex, h8, rfl⟩, by simp⟩
  · simp only [EditCall.mayRaise, List.forall_mem_cons]
    exact ⟨⟨oneIndex, h5, rfl⟩, ⟨badType, h2, rfl⟩, ⟨fewIndices, h7, rfl⟩, ⟨bigIndex, h8, rfl⟩, by simp⟩

end Bf2
