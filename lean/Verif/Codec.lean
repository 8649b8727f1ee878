import Verif.Py

/-!
# Model of `/repo/bf2mesh/io.py`

`struct` formats without a prefix are native: native size of C `long` and native byte order.  Both
are the parameter `Plat`.  All formats used are homogeneous, so native alignment adds no padding.
-/

namespace Bf2

/-- The platform the interpreter runs on: is C `long` 8 bytes (Linux, macOS) or 4 (Windows), and is
the byte order big-endian. -/
structure Plat where
  long8 : Bool
  bigEndian : Bool
  deriving DecidableEq, Repr

/-- `struct.calcsize('l')` -/
def Plat.longSize (pl : Plat) : Nat := if pl.long8 then 8 else 4

/-- Little-endian bytes, `k` of them, of `n`. -/
def encLE : Nat → Nat → Bytes
  | 0, _ => []
  | k + 1, n => UInt8.ofNat (n % 256) :: encLE k (n / 256)

/-- Number with the given little-endian bytes. -/
def decLE : Bytes → Nat
  | [] => 0
  | b :: bs => b.toNat + 256 * decLE bs

/-- Native byte order. -/
def Plat.order (pl : Plat) (bs : Bytes) : Bytes := if pl.bigEndian then bs.reverse else bs

/-- `k` bytes of `n` in native order. -/
def Plat.enc (pl : Plat) (k n : Nat) : Bytes := pl.order (encLE k n)

/-- Unsigned number with the given bytes in native order. -/
def Plat.dec (pl : Plat) (bs : Bytes) : Nat := decLE (pl.order bs)

/-- Two's complement reading of a `k`-byte unsigned number. -/
def toSigned (k n : Nat) : Int := if n < 2 ^ (8 * k - 1) then n else (n : Int) - 2 ^ (8 * k)

/-- Two's complement representation of `v` as a `k`-byte unsigned number. -/
def ofSigned (k : Nat) (v : Int) : Nat := (v % 2 ^ (8 * k)).toNat

/-- Does `v` fit a signed `k`-byte integer? -/
def fitsSigned (k : Nat) (v : Int) : Bool :=
  decide (-2 ^ (8 * k - 1) ≤ v) && decide (v < 2 ^ (8 * k - 1))

/-- Does `v` fit an unsigned 16-bit integer? -/
def fitsShort (v : Int) : Bool := decide (0 ≤ v) && decide (v < 65536)

/-- Conversion between Python floats and the 32-bit words `struct` stores for `f`. -/
class FCodec (F : Type) where
  /-- `struct.unpack('f', ...)` -/
  unpack : BitVec 32 → F
  /-- `struct.pack('f', ...)` -/
  pack : F → BitVec 32

/-- Raw words: no conversion.  Used to speak about the exact bytes of a file. -/
instance : FCodec (BitVec 32) := ⟨id, id⟩

/-- What `read_float`/`read_short` return for a count: the bare element when the count is 1, a tuple
otherwise (`io.py:12-18`, `io.py:34-40`). -/
inductive OneOrMany (α : Type)
  | one (a : α)
  | many (l : List α)
  deriving DecidableEq, Repr

variable {F : Type} [FCodec F]

/-- `struct.Struct(fmt).unpack(fo.read(size))` up to decoding: a short read makes `unpack` raise
`struct.error`. -/
def readBytes (n : Nat) : P Bytes := fun s =>
  if n ≤ s.length then .ok (s.take n, s.drop n) else .error .structError

/-- `io.py:26-32` with the default count, the only way it is called. -/
def readLong (pl : Plat) : P Int := do
  let bs ← readBytes pl.longSize
  pure (toSigned pl.longSize (pl.dec bs))

/-- One `H` element. -/
def readShort1 (pl : Plat) : P Int := do
  let bs ← readBytes 2
  pure (pl.dec bs)

/-- One `f` element. -/
def readFloat1 (pl : Plat) : P F := do
  let bs ← readBytes 4
  pure (FCodec.unpack (BitVec.ofNat 32 (pl.dec bs)))

/-- `'{}X'.format(n)` with `n < 0` is a bad format (`struct.error`); otherwise `n` elements are
read, and `unpacked[0]` is returned when `n == 1`.  Reading the elements one by one differs from the
single `fo.read` of the code only in how much of a too short file is consumed before `struct.error`
is raised. -/
def readCount {α : Type} (p : P α) (n : Int) : P (OneOrMany α) :=
  if n < 0 then P.raise .structError
  else if n = 1 then do
    let a ← p
    pure (.one a)
  else do
    let l ← P.rep p n.toNat
    pure (.many l)

/-- `io.py:34-40` -/
def readShort (pl : Plat) (n : Int) : P (OneOrMany Int) := readCount (readShort1 pl) n

/-- `io.py:12-18` -/
def readFloat (pl : Plat) (n : Int) : P (OneOrMany F) := readCount (readFloat1 pl) n

/-- A `float3` tuple. -/
structure Vec3 (F : Type) where
  x : F
  y : F
  z : F
  deriving DecidableEq, Repr

/-- A row of a matrix. -/
structure Vec4 (F : Type) where
  x : F
  y : F
  z : F
  w : F
  deriving DecidableEq, Repr

/-- A 4x4 matrix: a list of four 4-tuples. -/
structure Mat4 (F : Type) where
  r0 : Vec4 F
  r1 : Vec4 F
  r2 : Vec4 F
  r3 : Vec4 F
  deriving DecidableEq, Repr

/-- `io.py:20-24` -/
def readFloat3 (pl : Plat) : P (Vec3 F) := do
  let x ← readFloat1 pl
  let y ← readFloat1 pl
  let z ← readFloat1 pl
  pure ⟨x, y, z⟩

/-- One row of `io.py:58-68`. -/
def readFloat4 (pl : Plat) : P (Vec4 F) := do
  let x ← readFloat1 pl
  let y ← readFloat1 pl
  let z ← readFloat1 pl
  let w ← readFloat1 pl
  pure ⟨x, y, z, w⟩

/-- `io.py:58-68` -/
def readMatrix4 (pl : Plat) : P (Mat4 F) := do
  let r0 ← readFloat4 pl
  let r1 ← readFloat4 pl
  let r2 ← readFloat4 pl
  let r3 ← readFloat4 pl
  pure ⟨r0, r1, r2, r3⟩

/-- `io.py:42-48`: a negative length is a bad format, `struct.error`. -/
def readString (pl : Plat) : P Bytes := do
  let n ← readLong pl
  if n < 0 then P.raise .structError
  else readBytes n.toNat

/-- `io.py:50-56` with the default count, the only way it is called. -/
def readByte : P Int := do
  let bs ← readBytes 1
  pure (toSigned 1 (decLE bs))

/-- `io.py:71-73`: out of range is `struct.error`. -/
def writeLong (pl : Plat) (v : Int) : Out :=
  if fitsSigned pl.longSize v then .write (pl.enc pl.longSize (ofSigned pl.longSize v))
  else .raise .structError

/-- `io.py:75-77` -/
def writeShort (pl : Plat) (v : Int) : Out :=
  if fitsShort v then .write (pl.enc 2 v.toNat) else .raise .structError

/-- `io.py:83-85` -/
def writeByte (v : Int) : Out :=
  if fitsSigned 1 v then .write (encLE 1 (ofSigned 1 v)) else .raise .structError

/-- One packed `f`. -/
def floatBytes (pl : Plat) (x : F) : Bytes := pl.enc 4 (FCodec.pack x).toNat

/-- `io.py:87-93`; packing a Python float in native mode never raises. -/
def writeFloat (pl : Plat) (x : F) : Out := .write (floatBytes pl x)

/-- `io.py:79-81` -/
def writeFloat3 (pl : Plat) (v : Vec3 F) : Out :=
  .write (floatBytes pl v.x ++ floatBytes pl v.y ++ floatBytes pl v.z)

/-- `fo.write(struct.Struct('4f').pack(*row))` -/
def writeFloat4 (pl : Plat) (v : Vec4 F) : Out :=
  .write (floatBytes pl v.x ++ floatBytes pl v.y ++ floatBytes pl v.z ++ floatBytes pl v.w)

/-- `io.py:95-99` -/
def writeMatrix4 (pl : Plat) (m : Mat4 F) : Out :=
  .all [writeFloat4 pl m.r0, writeFloat4 pl m.r1, writeFloat4 pl m.r2, writeFloat4 pl m.r3]

/-- `io.py:101-105` -/
def writeString (pl : Plat) (s : Bytes) : Out :=
  .all [writeLong pl s.length, .write s]

end Bf2
