import Verif.OldEditSpec
import Verif.OldSpec

/-!
# What the methods of `VisMeshTransform` should do
-/

namespace Bf2

variable {F : Type}

/-! ## What a file shows of a mesh -/

/-- A lod without its polygon count. -/
def OldLod.plain (l : OldLod F) : OldLod F := { l with polyInum := 0 }

def OldGeom.plain (g : OldGeom F) : OldGeom F := { g with lods := g.lods.map OldLod.plain }

/-- A mesh without what no file holds: polygon counts, and whether its arrays are lists or tuples. -/
def OldMesh.plain (m : OldMesh F) : OldMesh F :=
  { m with geoms := m.geoms.map OldGeom.plain, vertsList := false, indexList := false }

/-- `o` is how the deprecated module holds `m`, but for what no file holds. -/
def Shows (o : OldMesh F) (m : Mesh F) : Prop := o.plain = m.old.plain

/-- The elements of `l` at the positions `js`. -/
def PickedAt {α : Type} (l : List α) (js : List Nat) (l' : List α) : Prop :=
  List.Forall₂ (fun j a => l[j]? = some a) js l'

/-- `insert(i, ..)` into a list of length `n` puts the new element at position `p`. -/
def InsertsAt (n : Nat) (i : Int) (p : Nat) : Prop :=
  (0 ≤ i ∧ i ≤ n ∧ i = p) ∨ (n < i ∧ p = n) ∨ (i < 0 ∧ 0 ≤ n + i ∧ n + i = p) ∨ (n + i < 0 ∧ p = 0)

/-- `l` with `x` in front of position `p`. -/
def insertedAt {α : Type} (l : List α) (p : Nat) (x : α) : List α := l.take p ++ x :: l.drop p

/-! ## Deleting a geom -/

/-- `a'` in `m'` is `a` of `m`, its data perhaps at other places. -/
structure OldMatKept (vs : Nat) (m m' : OldMesh F) (a a' : Mat F) : Prop where
  fields : a' = { a with vstart := a'.vstart, istart := a'.istart }
  verts : m'.vdata vs a' = m.vdata vs a
  index : m'.idata a' = m.idata a

def OldLodKept (vs : Nat) (m m' : OldMesh F) (l l' : OldLod F) : Prop :=
  l' = { l with materials := l'.materials } ∧
    List.Forall₂ (OldMatKept vs m m') l.materials l'.materials

def OldGeomKept (vs : Nat) (m m' : OldMesh F) (g g' : OldGeom F) : Prop :=
  g'.lodnum = g.lodnum ∧ List.Forall₂ (OldLodKept vs m m') g.lods g'.lods

/-- The first material of the first lod. -/
def OldGeom.First (g : OldGeom F) (a : Mat F) : Prop :=
  ∃ l ls as, g.lods = l :: ls ∧ l.materials = a :: as

/-! ## Editing a vertex -/

/-- `l` with the elements from position `p` replaced by `xs`. -/
def overwritten {α : Type} (l : List α) (p : Nat) (xs : List α) : List α :=
  l.take p ++ xs ++ l.drop (p + xs.length)

/-- An attribute `edit_vertex` can read: every known type but FLOAT4. -/
def EditableAttr (a : VAttr) : Prop := a.vartype ∈ [(0 : Int), 1, 2, 4, 5, 17] ∧ KnownUsage a.usage

/-- Every entry with usage `u`, also one marked unused, is at float `o`, and there is one. -/
def UsageAt (vf : Int) (attrs : List VAttr) (u : Int) (o : Nat) : Prop :=
  (∃ a ∈ attrs, a.usage = u) ∧ ∀ a ∈ attrs, a.usage = u → a.offset = vf * o

end Bf2
