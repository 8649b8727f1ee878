import Verif.OldMesh
import Verif.EditSpec

/-!
# Specification vocabulary for `/repo/deprecated/modmesh.py`

How a mesh of the package (`Mesh`) looks as a mesh of the deprecated module (`OldMesh`).
-/

namespace Bf2

variable {F : Type}

/-- A 16-bit word read as signed. -/
def signed16 (v : Int) : Int := if v < 32768 then v else v - 65536

/-- The attribute with signed fields. -/
def VAttr.signed (a : VAttr) : VAttr :=
  ⟨signed16 a.flag, signed16 a.offset, signed16 a.vartype, signed16 a.usage⟩

/-- All lods of a mesh in file order. -/
def Mesh.lods (m : Mesh F) : List (Lod F) := m.geoms.flatMap Geom.lods

/-- A lod that keeps its last node only; `poly` is the `inum` of the last material in the file up to
here. -/
def Lod.old (k : Kind) (poly : Int) (l : Lod F) : OldLod F where
  min := l.min
  max := l.max
  pivot := l.pivot
  rignum := if k.isSkinned then some l.rignum else none
  rigs := l.rigs
  nodenum := if k.isSkinned then none else some l.nodenum
  nodes := l.nodes.getLast?
  matnum := l.matnum
  materials := l.materials
  polyInum := poly

/-- `inum` of the last material. -/
def lastInum (mats : List (Mat F)) : Int := (mats.getLast?.map Mat.inum).getD 0

/-- The lods of a geom, after the materials `prev`. -/
def oldLods (k : Kind) : List (Mat F) → List (Lod F) → List (OldLod F)
  | _, [] => []
  | prev, l :: ls => l.old k (lastInum (prev ++ l.materials)) :: oldLods k (prev ++ l.materials) ls

/-- The geoms of a mesh, after the materials `prev`. -/
def oldGeoms (k : Kind) : List (Mat F) → List (Geom F) → List (OldGeom F)
  | _, [] => []
  | prev, g :: gs => ⟨g.lodnum, oldLods k prev g.lods⟩ :: oldGeoms k (prev ++ g.mats) gs

/-- A freshly loaded mesh as the deprecated module holds it. -/
def Mesh.old (m : Mesh F) : OldMesh F where
  kind := m.kind
  head := m.head
  u1 := m.u1
  geomnum := m.geomnum
  geoms := oldGeoms m.kind [] m.geoms
  vertattribnum := m.vertattribnum
  vattrs := m.vattrs.map VAttr.signed
  vertformat := m.vertformat
  vertstride := m.vertstride
  vertnum := m.vertnum
  vertices := m.vertices
  vertsList := false
  indexnum := m.indexnum
  index := m.index.elems
  indexList := false
  u2 := m.u2

/-- The first lod has no material. -/
def FirstEmpty (ls : List (Lod F)) : Prop := ∃ l, ls.head? = some l ∧ l.materials = []

instance (ls : List (Lod F)) : Decidable (FirstEmpty ls) :=
  match ls with
  | [] => .isFalse (by rintro ⟨_, h, _⟩; simp at h)
  | l :: _ =>
    match h : l.materials with
    | [] => .isTrue ⟨l, rfl, h⟩
    | _ :: _ => .isFalse (by rintro ⟨k, hk, hm⟩; simp at hk; subst hk; simp [h] at hm)

/-- All nodes of the lod are the same. -/
def SameNodes (l : Lod F) : Prop := ∀ a ∈ l.nodes, ∀ b ∈ l.nodes, a = b

/-- Every node replaced by the last one of its lod. -/
def Lod.lastNodes (l : Lod F) : Lod F :=
  { l with nodes := match l.nodes.getLast? with
      | none => []
      | some n => l.nodes.map fun _ => n }

def Geom.lastNodes (g : Geom F) : Geom F := { g with lods := g.lods.map Lod.lastNodes }

/-- The mesh with, in every lod, copies of the last node in place of all nodes. -/
def Mesh.lastNodes (m : Mesh F) : Mesh F := { m with geoms := m.geoms.map Geom.lastNodes }

end Bf2
