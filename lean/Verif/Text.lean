import Verif.Edit
import Verif.Object
import Verif.ColMesh

/-!
# `str()` of headers, attributes, faces and meshes, and the `with` statement

Texts of floats are not modelled, and so neither are those of `Vec3` and of the `y` data of collision meshes.
-/

namespace Bf2

/-- `str(n)` of an int: the decimal digits and a sign.  (Newer Pythons refuse ints of more than 4300
digits.) -/
def intText (n : Int) : Str :=
  if n < 0 then '-' :: Nat.toDigits 10 n.natAbs else Nat.toDigits 10 n.natAbs

/-- `visiblemesh.py:637-643` -/
def Head.text (h : Head) : Str :=
  ['\n'].intercalate
    ["head.u1 = ".toList ++ intText h.u1,
     "head.version = ".toList ++ intText h.version,
     "head.u3 = ".toList ++ intText h.u3,
     "head.u4 = ".toList ++ intText h.u4,
     "head.u5 = ".toList ++ intText h.u5]

/-- `D3DDECLTYPE(t).name`, `bf2types.py:8-19` -/
def typeName (t : Int) : Option Str :=
  if t = 0 then some "FLOAT1".toList
  else if t = 1 then some "FLOAT2".toList
  else if t = 2 then some "FLOAT3".toList
  else if t = 3 then some "FLOAT4".toList
  else if t = 4 then some "D3DCOLOR".toList
  else if t = 17 then some "UNUSED".toList
  else none

/-- `D3DDECLUSAGE(u).name`, `bf2types.py:35-55` -/
def usageName (u : Int) : Option Str :=
  if u = 0 then some "POSITION".toList
  else if u = 1 then some "BLENDWEIGHT".toList
  else if u = 2 then some "BLENDINDICES".toList
  else if u = 3 then some "NORMAL".toList
  else if u = 4 then some "PSIZE".toList
  else if u = 5 then some "UV1".toList
  else if u = 6 then some "TANGENT".toList
  else if u = 7 then some "BINORMAL".toList
  else if u = 8 then some "TESSFACTOR".toList
  else if u = 9 then some "POSITIONT".toList
  else if u = 10 then some "COLOR".toList
  else if u = 11 then some "FOG".toList
  else if u = 12 then some "DEPTH".toList
  else if u = 13 then some "SAMPLE".toList
  else if u = 261 then some "UV2".toList
  else if u = 517 then some "UV3".toList
  else if u = 773 then some "UV4".toList
  else if u = 1029 then some "UV5".toList
  else none

/-- `'%s' % D3DDECLTYPE(t)`: members of an `IntEnum` print as class and name before Python 3.11 and as ints
since. -/
def typeText (py311 : Bool) (t : Int) : Except Err Str :=
  match typeName t with
  | none => .error .valueError
  | some name => .ok (if py311 then intText t else "D3DDECLTYPE.".toList ++ name)

/-- `visiblemesh.py:983-984` -/
def VAttr.text (py311 : Bool) (a : VAttr) : Except Err Str :=
  match typeText py311 a.vartype with
  | .error e => .error e
  | .ok type =>
    match declLen a.vartype with
    | .error e => .error e
    | .ok size =>
      match usageName a.usage with
      | none => .error .valueError
      | some usage =>
        .ok ("flag: ".toList ++ intText a.flag ++ ", offset: ".toList ++ intText a.offset ++
          ", vartype: ".toList ++ type ++ " of size ".toList ++ intText size ++ ", usage: ".toList ++ usage)

/-- `modmesh.py:479-480` -/
def VAttr.oldText (a : VAttr) : Str :=
  '(' :: (intText a.flag ++ ", ".toList ++ intText a.offset ++ ", ".toList ++ intText a.vartype ++
    ", ".toList ++ intText a.usage ++ [')'])

/-- `modcolmesh.py:95-100`: the attribute `m` does not exist before `_read`. -/
def ColFace.text (f : ColFace) : Except Err Str :=
  match f.m with
  | none => .error .attributeError
  | some m =>
    .ok ('(' :: (intText f.v1 ++ ", ".toList ++ intText f.v2 ++ ", ".toList ++ intText f.v3 ++
      ", ".toList ++ intText m ++ [')']))

/-- `visiblemesh.py:82-88`: the parts of the text are made and dropped. -/
def Obj.text {F : Type} (o : Obj F) : Except Err Str :=
  let _parts := [o.filename, "header:\n".toList ++ o.mesh.head.text, "u1: ".toList ++ intText o.mesh.u1]
  .error .notImplementedError

/-- `visiblemesh.py:430-433`: what is logged when an attribute differs.  Line 432 has `str(attrib)` in both
places. -/
def attrMessage (py311 : Bool) (own other : Str) (id : Nat) (a : VAttr) : Except Err Str :=
  match a.text py311 with
  | .error e => .error e
  | .ok t =>
    .ok ("vertex_attributes[".toList ++ intText id ++ "] ".toList ++ t ++ " != vertex_attributes[".toList ++
      intText id ++ "] ".toList ++ t ++ " ".toList ++ own ++ ": ".toList ++ other)

/-! ## The `with` statement -/

/-- `visiblemesh.py:77-80`: closes the file if it is open; the result is `None`, so that an exception goes
on. -/
def Obj.exit {F : Type} (o : Obj F) : Obj F × Bool := (o, false)

/-- `with o as m: body`.  The body gets the object itself and leaves it in some state. -/
def Obj.withDo {F : Type} [FCodec F] (pl : Plat) (fs : FS) (o : Obj F)
    (body : FS → Obj F → FS × Obj F × Option Err) : FS × Obj F × Option Err :=
  match o.enter pl fs with
  | .error e => (fs, o, some e)
  | .ok o1 =>
    match body fs o1 with
    | (fs2, o2, none) => (fs2, o2.exit.1, none)
    | (fs2, o2, some e) => (fs2, o2.exit.1, if o2.exit.2 then none else some e)

end Bf2
