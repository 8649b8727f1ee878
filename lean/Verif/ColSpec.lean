import Verif.ColMesh
import Verif.Layout

/-!
# What a collision mesh file is

Independent of the readers and writers of `ColMesh.lean`: the content of a file, when its counts are
consistent, and its items in order.
-/

namespace Bf2

/-- A face as the file stores it. -/
structure FileFace where
  v1 : Int
  v2 : Int
  v3 : Int
  material : Int
  deriving DecidableEq, Repr

local notation "W" => BitVec 32

/-- The content of a collision mesh file. -/
abbrev ColFile := ColMesh W FileFace

section
variable {F G φ ψ : Type}

/-! ## Replacing all floats and all faces -/

def ColY.map (f : F → G) (y : ColY F) : ColY G := ⟨f y.u1, y.u2, y.u3, y.u4, y.u5⟩

def ColLod.map (f : F → G) (g : φ → ψ) (l : ColLod F φ) : ColLod G ψ :=
  ⟨l.coltype, l.facenum, l.faces.map g, l.vertnum, l.vertices.map (Vec3.map f), l.vertids, l.min.map f,
    l.max.map f, l.u7, l.bmin.map f, l.bmax.map f, l.ynum, l.ydata.map (ColY.map f), l.znum, l.zdata,
    l.anum, l.adata⟩

def ColSub.map (f : F → G) (g : φ → ψ) (s : ColSub F φ) : ColSub G ψ :=
  ⟨s.lodnum, s.lods.map (ColLod.map f g)⟩

def ColGeom.map (f : F → G) (g : φ → ψ) (x : ColGeom F φ) : ColGeom G ψ :=
  ⟨x.subgeomnum, x.subgeoms.map (ColSub.map f g)⟩

def ColMesh.map (f : F → G) (g : φ → ψ) (m : ColMesh F φ) : ColMesh G ψ :=
  ⟨m.u1, m.version, m.geomnum, m.geoms.map (ColGeom.map f g)⟩

/-- All lods, in file order. -/
def ColMesh.lods (m : ColMesh F φ) : List (ColLod F φ) :=
  m.geoms.flatMap fun g => g.subgeoms.flatMap fun s => s.lods

/-- All floats of a lod. -/
def ColLod.floats (l : ColLod F φ) : List F :=
  l.vertices.flatMap Vec3.floats ++ l.min.floats ++ l.max.floats ++ l.bmin.floats ++ l.bmax.floats ++
    l.ydata.map (·.u1)

/-! ## Consistent counts -/

/-- The collections have the announced lengths (a negative count announces nothing), the collision
type is one of the five known ones, and what the version does not store has its default value. -/
structure ColLodWF (version : Int) (l : ColLod F φ) : Prop where
  coltype : if 9 ≤ version then 0 ≤ l.coltype ∧ l.coltype ≤ 4 else l.coltype = 0
  faces : l.faces.length = l.facenum.toNat
  vertices : l.vertices.length = l.vertnum.toNat
  vertids : l.vertids.length = l.vertnum.toNat
  ydata : l.ydata.length = l.ynum.toNat
  zdata : l.zdata.length = l.znum.toNat
  adata : if 10 ≤ version then l.adata.length = l.anum.toNat else l.anum = 0 ∧ l.adata = []

structure ColSubWF (version : Int) (s : ColSub F φ) : Prop where
  count : s.lods.length = s.lodnum.toNat
  lods : ∀ l ∈ s.lods, ColLodWF version l

structure ColGeomWF (version : Int) (g : ColGeom F φ) : Prop where
  count : g.subgeoms.length = g.subgeomnum.toNat
  subgeoms : ∀ s ∈ g.subgeoms, ColSubWF version s

structure ColWF (m : ColMesh F φ) : Prop where
  count : m.geoms.length = m.geomnum.toNat
  geoms : ∀ g ∈ m.geoms, ColGeomWF m.version g

end

/-! ## Items -/

def FileFace.items (f : FileFace) : List Item :=
  [.sshort f.v1, .sshort f.v2, .sshort f.v3, .sshort f.material]

def ColY.items (y : ColY W) : List Item :=
  [.word y.u1, .sshort y.u2, .sshort y.u3, .long y.u4, .long y.u5]

/-- Collision type (version 9 on), faces, vertices and their ids, bounds with a byte between them,
three blocks of unknown meaning, the last from version 10 on. -/
def ColLod.items (version : Int) (l : ColLod W FileFace) : List Item :=
  (if 9 ≤ version then [.long l.coltype] else []) ++
    (.long l.facenum :: l.faces.flatMap FileFace.items) ++
    (.long l.vertnum :: (l.vertices.flatMap Vec3.items ++ l.vertids.map .sshort)) ++
    (l.min.items ++ l.max.items ++ [.byte l.u7] ++ l.bmin.items ++ l.bmax.items) ++
    (.long l.ynum :: l.ydata.flatMap ColY.items) ++
    (.long l.znum :: l.zdata.map .sshort) ++
    (if 10 ≤ version then .long l.anum :: l.adata.map .long else [])

def ColSub.items (version : Int) (s : ColSub W FileFace) : List Item :=
  .long s.lodnum :: s.lods.flatMap (ColLod.items version)

def ColGeom.items (version : Int) (g : ColGeom W FileFace) : List Item :=
  .long g.subgeomnum :: g.subgeoms.flatMap (ColSub.items version)

def ColMesh.items (m : ColFile) : List Item :=
  [.long m.u1, .long m.version, .long m.geomnum] ++ m.geoms.flatMap (ColGeom.items m.version)

/-! ## Files and face objects -/

/-- The face object a face of a file is read into: `material` stays 0, the number goes to `m`. -/
def FileFace.obj (f : FileFace) : ColFace := ⟨f.v1, f.v2, f.v3, 0, some f.material⟩

/-- What is stored for a face object. -/
def ColFace.stored (f : ColFace) : FileFace := ⟨f.v1, f.v2, f.v3, f.material⟩

/-- The face with material 0. -/
def FileFace.blank (f : FileFace) : FileFace := { f with material := 0 }

/-- The mesh object of a file. -/
def ColMesh.obj (r : ColFile) : ColMesh F64 ColFace := ColMesh.map unpackF FileFace.obj r

/-- The file of a mesh object. -/
def ColMesh.stored (m : ColMesh F64 ColFace) : ColFile := ColMesh.map packF ColFace.stored m

end Bf2
