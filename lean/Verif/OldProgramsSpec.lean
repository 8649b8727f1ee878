import Verif.OldPrograms
import Verif.OldScriptsSpec
import Verif.OldSaveSpec

/-!
# What the scripts of `/repo/deprecated` should do
-/

namespace Bf2

variable {F : Type}

/-- Exactly one entry of the table has usage `u`; it is in use, a FLOAT2, and not the first one. -/
def OneFloat2 (attrs : List VAttr) (u : Int) : Prop :=
  ∃ (j : Nat) (a : VAttr), attrs[j]? = some a ∧ j ≠ 0 ∧ a.flag ≠ 255 ∧ a.usage = u ∧ a.vartype = 1 ∧
    ∀ (k : Nat) (b : VAttr), attrs[k]? = some b → b.usage = u → k = j

/-- A mesh like the one `box_modify.py` is made for: 25 vertices with four texture coordinates each (the
usages 5, 261, 517 and 773). -/
structure BoxWithUVs (vs : Nat) (m : OldMesh F) : Prop where
  packed : Packed vs m
  editable : ∀ a ∈ m.vattrs, EditableAttr a
  parked : ∀ a ∈ m.vattrs, a.flag = 255 → a.offset = 0
  count : m.vertnum = 25
  uvs : ∀ u ∈ [5, 261, 517, 773], OneFloat2 m.vattrs u

/-- Vertex `i` of the box: no second, third and fourth texture coordinates, and other first ones for
vertex 14. -/
def boxVertex (half one : F) (i : Nat) (v : VObj F) : VObj F := fun u =>
  if u = 261 ∨ u = 517 ∨ u = 773 then none
  else if u = 5 ∧ i = 14 then some [half, one]
  else v u

/-- What is shown for one entry of the table: the entry, then that attribute of every vertex. -/
def ShownAttr (m : OldMesh F) (a : VAttr) (out : List (Shown F)) : Prop :=
  ∃ lines, out = .attr a.usage a.vartype :: lines ∧ (lines.length : Int) = m.vertnum ∧
    (a.flag ≠ 255 → ∀ i : Nat, (i : Int) < m.vertnum → ∃ s v data,
      lines[i]? = some (.vertex i s data) ∧ getVertex m i = .ok v ∧ v a.usage = some data)

/-- What is shown for the indices: each with the first three floats of the vertex it names, and a blank
line behind every third. -/
def cornerLines (vs : Nat) (m : OldMesh F) : List (Shown F) :=
  (m.index.mapIdx fun k id =>
    .corner id ((vert vs m.vertices id.toNat).take 3) :: if k % 3 = 2 then [.blank] else []).flatten

/-- The doubles 0.5 and 1.0. -/
def half64 : F64 := F64.ofRat false (1 / 2)
def one64 : F64 := F64.ofRat false 1

end Bf2
