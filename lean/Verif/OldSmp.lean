import Verif.Codec

/-!
# `smp_sample` and `smp_face`, `/repo/deprecated/modmesh.py:1098-1141`

Both objects are filled field by field from an open file, so a file that ends early leaves the fields
read before as they are.
-/

namespace Bf2

variable {F : Type} [FCodec F]

/-- `modmesh.py:1100-1103`: absent fields are `None`. -/
structure SmpSample (F : Type) where
  position : Option (Vec3 F) := none
  rotation : Option (Vec3 F) := none
  face : Option Int := none

/-- `modmesh.py:1113-1131` -/
structure SmpFace (F : Type) where
  v1 : Option (Vec3 F) := none
  n1 : Option (Vec3 F) := none
  v2 : Option (Vec3 F) := none
  n2 : Option (Vec3 F) := none
  v3 : Option (Vec3 F) := none
  n3 : Option (Vec3 F) := none

/-- `self.field = read(fo)` and the statements after it. The readers are those of lines 159-169. A
read that raises has taken all bytes there were (`fo.read` of more than is left), and the field
keeps its value. -/
def setField {α σ : Type} (p : P α) (s : σ) (put : α → σ) (rest : σ → Bytes → σ × Bytes × Option Err)
    (file : Bytes) : σ × Bytes × Option Err :=
  match p file with
  | .error e => (s, [], some e)
  | .ok (a, file') => rest (put a) file'

/-- `modmesh.py:1105-1108`: the object, what is left of the file, and the exception. -/
def SmpSample.read (pl : Plat) (s : SmpSample F) (file : Bytes) : SmpSample F × Bytes × Option Err :=
  setField (readFloat3 pl) s (fun v => { s with position := some v }) (fun s =>
    setField (readFloat3 pl) s (fun v => { s with rotation := some v }) (fun s =>
      setField (readLong pl) s (fun v => { s with face := some v }) (fun s file => (s, file, none)))) file

/-- `modmesh.py:1133-1141` -/
def SmpFace.read (pl : Plat) (s : SmpFace F) (file : Bytes) : SmpFace F × Bytes × Option Err :=
  setField (readFloat3 pl) s (fun v => { s with v1 := some v }) (fun s =>
    setField (readFloat3 pl) s (fun v => { s with n1 := some v }) (fun s =>
      setField (readFloat3 pl) s (fun v => { s with v2 := some v }) (fun s =>
        setField (readFloat3 pl) s (fun v => { s with n2 := some v }) (fun s =>
          setField (readFloat3 pl) s (fun v => { s with v3 := some v }) (fun s =>
            setField (readFloat3 pl) s (fun v => { s with n3 := some v })
              (fun s file => (s, file, none)))))))  file

end Bf2
