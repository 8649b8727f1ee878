import Verif.OldSample
import Verif.Text

/-!
# Model of `display_material_data` and the top-level code of `/repo/deprecated/mesh_read.py`

What is printed is a list of texts, one for each call of `print`.
-/

namespace Bf2

/-- A hexadecimal digit. -/
def hexDigit (n : Nat) : Char := if n < 10 then Char.ofNat (48 + n) else Char.ofNat (87 + n)

/-- How `repr` of bytes shows one byte between quotes `q`. -/
def escapeByte (q : Char) (b : UInt8) : Str :=
  let c := Char.ofNat b.toNat
  if c = q ∨ c = '\\' then ['\\', c]
  else if c = '\t' then ['\\', 't']
  else if c = '\n' then ['\\', 'n']
  else if c = '\r' then ['\\', 'r']
  else if b.toNat < 32 ∨ 127 ≤ b.toNat then ['\\', 'x', hexDigit (b.toNat / 16), hexDigit (b.toNat % 16)]
  else [c]

/-- `'{}'.format(b)` of bytes: their `repr`, in double quotes if there is a single one and no double one. -/
def bytesText (b : Bytes) : Str :=
  let q := if 39 ∈ b ∧ 34 ∉ b then '"' else '\''
  'b' :: q :: (b.flatMap (escapeByte q) ++ [q])

/-- `'{}'.format(x)` of an int or `None`. -/
def optText : Option Int → Str
  | none => "None".toList
  | some n => intText n

variable {F : Type}

/-- The texts for the maps, `mesh_read.py:39-40`. -/
def mapTexts (i : Nat) : List Bytes → List Str
  | [] => []
  | b :: bs => ("map[".toList ++ intText i ++ "] = ".toList ++ bytesText b) :: mapTexts (i + 1) bs

/-- `mesh_read.py:35-44` -/
def matTexts (a : Mat F) : List Str :=
  ["alphamode = ".toList ++ optText a.alphamode, "fxfile = ".toList ++ bytesText a.fxfile,
    "technique = ".toList ++ bytesText a.technique, "mapnum = ".toList ++ intText a.mapnum] ++
  mapTexts 0 a.maps ++
  ["vnum = ".toList ++ intText a.vnum, "vstart = ".toList ++ intText a.vstart,
    "inum = ".toList ++ intText a.inum, "istart = ".toList ++ intText a.istart]

/-- `vmesh.geoms[geom].lods[lod].materials[material]` -/
def oldMatAt (m : OldMesh F) (geom lod material : Int) : Option (Mat F) :=
  match pyGet m.geoms geom with
  | none => none
  | some g =>
    match pyGet g.lods lod with
    | none => none
    | some l => pyGet l.materials material

/-- `display_material_data`, `mesh_read.py:32-44`: the texts printed, and the exception if there is one. -/
def displayMaterial (m : OldMesh F) (geom lod material : Int) : List Str × Option Err :=
  let title := "\ngeom".toList ++ intText geom
  match oldMatAt m geom lod material with
  | none => ([title], some .indexError)
  | some a => (title :: matTexts a, none)

/-- The file `mesh_read.py:47` names; where `/` separates directories, it has none. -/
def kitsFile : Str := "tests\\samples\\kits\\Mec\\Meshes\\mec_kits.skinnedMesh".toList

/-- The top-level code, `mesh_read.py:47-53`. -/
def meshRead (F : Type) [FCodec F] (pl : Plat) (fs : FS) : List Str × Option Err :=
  match oldLoadPath (F := F) pl fs kitsFile with
  | .error e => ([], some e)
  | .ok m =>
    match displayMaterial m 17 0 0 with
    | (out, some e) => (out, some e)
    | (out, none) =>
      let (out', e) := displayMaterial m 18 0 0
      (out ++ out', e)

end Bf2
