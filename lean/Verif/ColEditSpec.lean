import Verif.ColSpec
import Verif.EditSpec

/-!
# What moving and merging collision meshes should do

Independent of the merge functions of `ColMesh.lean`.
-/

namespace Bf2

section
variable {F φ : Type}

/-- Lod `k` of subgeom `j` of geom `i`. -/
def ColMesh.lodAt (m : ColMesh F φ) (i j k : Nat) : Option (ColLod F φ) :=
  (m.geoms[i]?).bind fun g => (g.subgeoms[j]?).bind fun s => s.lods[k]?

/-- Everything but the lods: header, counts, and the number of lods. -/
def ColMesh.skeleton (m : ColMesh F φ) : Int × Int × Int × List (Int × List (Int × Nat)) :=
  (m.u1, m.version, m.geomnum, m.geoms.map fun g =>
    (g.subgeomnum, g.subgeoms.map fun s => (s.lodnum, s.lods.length)))

/-- The lod without its vertices. -/
def ColLod.eraseVertices (l : ColLod F φ) : ColLod F φ := { l with vertices := [] }

/-- The mesh without its vertices. -/
def ColMesh.eraseVertices (m : ColMesh F φ) : ColMesh F φ :=
  { m with geoms := m.geoms.map fun g => { g with subgeoms := g.subgeoms.map fun s =>
    { s with lods := s.lods.map ColLod.eraseVertices } } }

/-- All face objects of a mesh. -/
def ColMesh.allFaces (m : ColMesh F φ) : List φ := m.lods.flatMap (·.faces)

/-- By how much the corners of face `x` are moved when a mesh with these lods is merged into another. -/
def movedBy (ls : List (ColLod F Nat)) (x : Nat) : Int :=
  (ls.map fun l => l.vertnum * (l.faces.count x : Int)).sum

variable [FArith F]

/-- `c` is `a` with the content of `b` appended: vertices, faces and data after those of `a`, counts
added, collision type and `u7` those of `a`.  (Bounds are dealt with separately.) -/
structure Joined (a b c : ColLod F Nat) : Prop where
  vertices : c.vertices = a.vertices ++ b.vertices
  vertids : c.vertids = a.vertids ++ b.vertids
  faces : c.faces = a.faces ++ b.faces
  ydata : c.ydata = a.ydata ++ b.ydata
  zdata : c.zdata = a.zdata ++ b.zdata
  adata : c.adata = a.adata ++ b.adata
  vertnum : c.vertnum = a.vertnum + b.vertnum
  facenum : c.facenum = a.facenum + b.facenum
  ynum : c.ynum = a.ynum + b.ynum
  znum : c.znum = a.znum + b.znum
  anum : c.anum = a.anum + b.anum
  coltype : c.coltype = a.coltype
  u7 : c.u7 = a.u7

/-- The bounds `low`, `high` are `low0`, `high0` extended to the points `vs`: no point is outside, the
bounds did not shrink, and every component is an old one or that of a point. -/
structure Extended (low0 high0 : Vec3 F) (vs : List (Vec3 F)) (low high : Vec3 F) : Prop where
  covers : Covers low high (· ∈ vs)
  grows : ∀ c, FArith.lt (low0.comp c) (low.comp c) = false ∧
    FArith.lt (high.comp c) (high0.comp c) = false
  attained : ∀ c, (low.comp c = low0.comp c ∨ ∃ v ∈ vs, low.comp c = v.comp c) ∧
    (high.comp c = high0.comp c ∨ ∃ v ∈ vs, high.comp c = v.comp c)

/-- Every subgeom and lod of `b` has a counterpart in `a`. -/
def Matches (a b : ColMesh F φ) : Prop :=
  b.geoms.length ≤ a.geoms.length ∧
  ∀ (i : Nat) (ga gb : ColGeom F φ), a.geoms[i]? = some ga → b.geoms[i]? = some gb →
    gb.subgeoms.length ≤ ga.subgeoms.length ∧
    ∀ (j : Nat) (sa sb : ColSub F φ), ga.subgeoms[j]? = some sa → gb.subgeoms[j]? = some sb →
      sb.lods.length ≤ sa.lods.length

/-- No count is negative. -/
def ColLod.CountsNonneg (l : ColLod F φ) : Prop :=
  0 ≤ l.facenum ∧ 0 ≤ l.vertnum ∧ 0 ≤ l.ynum ∧ 0 ≤ l.znum ∧ 0 ≤ l.anum

/-- What is seen of a mesh when its face objects are looked up. -/
def ColMesh.view (h : Heap) (m : ColMesh F Nat) : ColMesh F ColFace := m.map id h

/-- The corners of a face. -/
def ColFace.corners (f : ColFace) : List Int := [f.v1, f.v2, f.v3]

/-- The corners of a face are positions in a list of `n` vertices. -/
def ColFace.Within (f : ColFace) (n : Int) : Prop :=
  (0 ≤ f.v1 ∧ f.v1 < n) ∧ (0 ≤ f.v2 ∧ f.v2 < n) ∧ (0 ≤ f.v3 ∧ f.v3 < n)

end

end Bf2
