import Verif.Layout
import Verif.ByteSpec

/-!
# Which bytes of a file the layout does not depend on (C176)

`Mesh.marked` lists the items of a mesh again (see `Mesh.items`), each with a mark: `true` for a value
nothing else in the file depends on.  `Mesh.blank` is a mesh without those values.
-/

namespace Bf2

local notation "W" => BitVec 32

variable {F : Type}

/-- An item, and whether it is free: where the other items are does not depend on its value. -/
abbrev Marked := Bool × Item

/-- An item others depend on: a count, the version, the vertex format. -/
def fixed (i : Item) : Marked := (false, i)

/-- An item no other depends on. -/
def free (i : Item) : Marked := (true, i)

/-- One entry for each byte of an item.  The length of a text is never free. -/
def Marked.mask (pl : Plat) (p : Marked) : List Bool :=
  match p.2 with
  | .long _ => List.replicate pl.cLong p.1
  | .short _ => List.replicate 2 p.1
  | .sshort _ => List.replicate 2 p.1
  | .byte _ => List.replicate 1 p.1
  | .word _ => List.replicate 4 p.1
  | .text s => List.replicate pl.cLong false ++ List.replicate s.length p.1

def Head.marked (h : Head) : List Marked :=
  [free (.long h.u1), fixed (.long h.version), free (.long h.u3), free (.long h.u4), free (.long h.u5)]

def VAttr.marked (a : VAttr) : List Marked := a.items.map free

def Bone.marked (b : Bone W) : List Marked := b.items.map free

def Rig.marked (r : Rig W) : List Marked := fixed (.long r.bonenum) :: r.bones.flatMap Bone.marked

/-- The number of nodes of a bundled mesh is free: no nodes follow. -/
def Lod.nodeMarked (k : Kind) (l : Lod W) : List Marked :=
  (l.min.items ++ l.max.items ++ optItems Vec3.items l.pivot).map free ++
    if k.isSkinned then fixed (.long l.rignum) :: l.rigs.flatMap Rig.marked
    else (k.isBundled, .long l.nodenum) :: (l.nodes.flatMap Mat4.items).map free

def Mat.marked (m : Mat W) : List Marked :=
  (optItems (fun a => [.long a]) m.alphamode).map free ++
    [free (.text m.fxfile), free (.text m.technique), fixed (.long m.mapnum)] ++
    (m.maps.map .text).map free ++
    (([.long m.vstart, .long m.istart, .long m.inum, .long m.vnum, .long m.u4, .long m.u5] : List Item) ++
      optItems Vec3.items m.mmin ++ optItems Vec3.items m.mmax).map free

def Lod.matMarked (l : Lod W) : List Marked := fixed (.long l.matnum) :: l.materials.flatMap Mat.marked

def Mesh.marked (m : Mesh W) : List Marked :=
  m.head.marked ++ [free (.byte m.u1), fixed (.long m.geomnum)] ++
    (m.geoms.map fun g => fixed (.long g.lodnum)) ++ [fixed (.long m.vertattribnum)] ++
    m.vattrs.flatMap VAttr.marked ++
    [fixed (.long m.vertformat), fixed (.long m.vertstride), fixed (.long m.vertnum)] ++
    (m.vertices.map .word).map free ++ [fixed (.long m.indexnum)] ++ (m.index.elems.map .short).map free ++
    (if m.kind.isSkinned then [] else [free (.long m.u2)]) ++
    m.geoms.flatMap (fun g => g.lods.flatMap (Lod.nodeMarked m.kind)) ++
    m.geoms.flatMap (fun g => g.lods.flatMap Lod.matMarked)

/-- `true` for each byte of the file of the mesh that is free. -/
def Mesh.freeMask (pl : Plat) (m : Mesh F) : List Bool :=
  (m.map fun _ => (0 : W)).marked.flatMap (Marked.mask pl)

/-! ## The mesh without the values of free items -/

/-- A text of the same length. -/
def noText (s : Bytes) : Bytes := List.replicate s.length 0

def Head.blank (h : Head) : Head := ⟨0, h.version, 0, 0, 0⟩

def OneOrMany.blank : OneOrMany Int → OneOrMany Int
  | .one _ => .one 0
  | .many l => .many (l.map fun _ => 0)

def Bone.blank (b : Bone F) : Bone Unit := ⟨0, b.matrix.map fun _ => ()⟩

def Rig.blank (r : Rig F) : Rig Unit := ⟨r.bonenum, r.bones.map Bone.blank⟩

def Mat.blank (a : Mat F) : Mat Unit :=
  ⟨a.alphamode.map fun _ => 0, noText a.fxfile, noText a.technique, a.mapnum, a.maps.map noText,
    0, 0, 0, 0, 0, 0, a.mmin.map (Vec3.map fun _ => ()), a.mmax.map (Vec3.map fun _ => ())⟩

def Lod.blank (k : Kind) (l : Lod F) : Lod Unit :=
  ⟨l.min.map fun _ => (), l.max.map fun _ => (), l.pivot.map (Vec3.map fun _ => ()), l.rignum,
    l.rigs.map Rig.blank, if k.isSkinned = false ∧ k.isBundled = true then 0 else l.nodenum,
    l.nodes.map (Mat4.map fun _ => ()), l.matnum, l.materials.map Mat.blank⟩

def Geom.blank (k : Kind) (g : Geom F) : Geom Unit := ⟨g.lodnum, g.lods.map (Lod.blank k)⟩

/-- Counts, lengths, the version and the vertex format stay; other numbers and letters become 0, floats
go. -/
def Mesh.blank (m : Mesh F) : Mesh Unit :=
  ⟨m.kind, m.head.blank, 0, m.geomnum, m.geoms.map (Geom.blank m.kind), m.vertattribnum,
    m.vattrs.map fun _ => ⟨0, 0, 0, 0⟩, m.vertformat, m.vertstride, m.vertnum, m.vertices.map fun _ => (),
    m.indexnum, m.index.blank, if m.kind.isSkinned then m.u2 else 0⟩

end Bf2
