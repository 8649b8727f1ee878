import Verif.HistorySpec
import Verif.OldHistorySpec
import Verif.OldSpec

/-!
# The same edits with the package and with the deprecated module (C171)
-/

namespace Bf2

/-- A lod without what the modules compute differently or no file holds: boxes and the polygon count. -/
def OldLod.boxless (l : OldLod F64) : OldLod F64 := { l with
  min := ⟨F64.zero, F64.zero, F64.zero⟩, max := ⟨F64.zero, F64.zero, F64.zero⟩, polyInum := 0
  materials := l.materials.map fun a => { a with mmin := none, mmax := none } }

def OldGeom.boxless (g : OldGeom F64) : OldGeom F64 := { g with lods := g.lods.map OldLod.boxless }

/-- A mesh object without boxes and polygon counts, and whatever its arrays are, tuples or lists. -/
def OldMesh.boxless (o : OldMesh F64) : OldMesh F64 :=
  { o with geoms := o.geoms.map OldGeom.boxless, vertsList := false, indexList := false }

/-- The two modules hold the same mesh, boxes apart: all numbers of the header and of the tables, the floats of all
vertices, the indices, and of every lod and material all but its box (of the nodes of a lod, the deprecated module holds
the last one only). -/
def SameBut (o : OldMesh F64) (m : Mesh F64) : Prop := o.boxless = m.old.boxless

/-- What the two modules hold after the same calls, on what they loaded from the same files.  All meshes are in good
order, in the sense of each module, and the fields of the attributes are the same read as signed numbers.  The package
may update its boxes at any time.  -/
inductive Twins [Libm F64] (vs : Nat) : OldMesh F64 → Mesh F64 → Prop
  | load {pl : Plat} {k : Kind} {file : Bytes} {o : OldMesh F64} {m : Mesh F64} (loaded : load pl k file = .ok m)
      (old : oldLoad pl k file = .ok o) (order : Orderly vs m) (oldOrder : OldOrderly vs o)
      (plain : ∀ a ∈ m.vattrs, a.signed = a) : Twins vs o m
  | translate {o : OldMesh F64} {m : Mesh F64} (twins : Twins vs o m) (d : Vec3 F64)
      (nz : ∀ t ∈ d.toList, t ≠ F64.zero.negate) : Twins vs (oldTranslate o d.toList).1 (translate m d.toList).1
  | rotate {o : OldMesh F64} {m : Mesh F64} (twins : Twins vs o m) (y p r : F64) (rest : List F64)
      (defined : ∀ a ∈ [y, p, r], (Libm.cos (Libm.radians a)).isSome ∧ (Libm.sin (Libm.radians a)).isSome) :
      Twins vs (oldRotate o (y :: p :: r :: rest)).1 (rotate m (y :: p :: r :: rest)).1
  | update {o : OldMesh F64} {m : Mesh F64} (twins : Twins vs o m) : Twins vs o (updateBoundaries m).1
  | merge {o o' : OldMesh F64} {m m' n : Mesh F64} (twins : Twins vs o m) (twins' : Twins vs o' m')
      (static : o.kind.isStatic = true ∨ o'.kind.isStatic = true) (merged : merge m m' = (n, .ok .done))
      (size : n.vertices.length ≤ 2 ^ 53) : Twins vs (oldMerge o o').1 n

end Bf2
