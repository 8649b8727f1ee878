import Mathlib.Data.Int.Log
import Mathlib.Data.Rat.Floor

/-!
# IEEE-754 binary32 and binary64

Python floats are C doubles.  `struct` in native mode (`bf2mesh/io.py` uses native formats only)
unpacks `f` with the C cast `(double)x` and packs it with `(float)x`.  This file gives both casts,
`+ - *`, `/ 2`, `<`, and the integer true division followed by `int(...)` the code uses, on bit
patterns, each as the correctly rounded (nearest, ties to even) exact rational result.

Conventions: a magnitude is the bit pattern without the sign bit; `p` is the number of fraction
bits and `emin` the exponent of the smallest subnormal (binary32: 23, -149; binary64: 52, -1074).
-/

namespace Bf2

/-- Round half to even. -/
def rne (q : ℚ) : ℤ :=
  let n := ⌊q⌋
  let d := q - n
  if d < 1 / 2 then n else if 1 / 2 < d then n + 1 else if n % 2 = 0 then n else n + 1

/-- Exponent of the unit in the last place used when rounding the non-negative `r`.  (`Int.log 2 0`
is 0 in Mathlib, hence the case.) -/
def ulpExp (p : ℕ) (emin : ℤ) (r : ℚ) : ℤ := if r = 0 then emin else max emin (Int.log 2 r - p)

/-- Nearest value of the format, with unbounded largest exponent, to `r ≥ 0`. -/
def rndMag (p : ℕ) (emin : ℤ) (r : ℚ) : ℚ :=
  rne (r / 2 ^ ulpExp p emin r) * 2 ^ ulpExp p emin r

/-- Nearest value of the format to `r`. -/
def rndVal (p : ℕ) (emin : ℤ) (r : ℚ) : ℚ :=
  if r < 0 then - rndMag p emin (-r) else rndMag p emin r

/-- Magnitude bits of the value nearest to `r ≥ 0`.  The exponent field is `e - emin + 1` and the
hidden bit is part of the rounded mantissa, so a mantissa that rounds up to the next power of two
carries into the exponent by itself; subnormals need no special case. -/
def encMag (p : ℕ) (emin : ℤ) (r : ℚ) : ℕ :=
  ((ulpExp p emin r - emin) * 2 ^ p + rne (r / 2 ^ ulpExp p emin r)).toNat

/-- Value of finite magnitude bits. -/
def decMag (p : ℕ) (emin : ℤ) (bits : ℕ) : ℚ :=
  if bits / 2 ^ p = 0 then bits * 2 ^ emin
  else (2 ^ p + (bits % 2 ^ p : ℕ)) * 2 ^ (emin + (bits / 2 ^ p : ℕ) - 1)

/-- Magnitude bits of infinity: binary32. -/
abbrev inf32 : ℕ := 255 * 2 ^ 23
/-- Magnitude bits of infinity: binary64. -/
abbrev inf64 : ℕ := 2047 * 2 ^ 52

/-- A C double: sign and the other 63 bits. -/
structure F64 where
  neg : Bool
  mag : ℕ
  lt : mag < 2 ^ 63
  deriving DecidableEq

namespace F64

/-- Build a double from a sign and magnitude bits; magnitudes are `< 2^63` wherever it is used. -/
def mk' (neg : Bool) (mag : ℕ) : F64 := ⟨neg, mag % 2 ^ 63, Nat.mod_lt _ (by norm_num)⟩

def isNaN (x : F64) : Bool := decide (inf64 < x.mag)
def isInf (x : F64) : Bool := decide (x.mag = inf64)
def isFin (x : F64) : Bool := decide (x.mag < inf64)

/-- Exact value of a finite double. -/
def toRat (x : F64) : ℚ :=
  if x.neg then - decMag 52 (-1074) x.mag else decMag 52 (-1074) x.mag

/-- Correctly rounded double for `r`, which gets sign `neg` when it is zero. -/
def ofRat (neg : Bool) (r : ℚ) : F64 :=
  if r < 0 then mk' true (min inf64 (encMag 52 (-1074) (-r)))
  else if 0 < r then mk' false (min inf64 (encMag 52 (-1074) r))
  else mk' neg 0

/-- `0.0` -/
def zero : F64 := mk' false 0

/-- The default NaN of invalid operations (x86-64). -/
def defaultNaN : F64 := mk' true (inf64 + 2 ^ 51)

/-- Set the quiet bit of a NaN. -/
def quiet (x : F64) : F64 := if x.mag / 2 ^ 51 % 2 = 0 then mk' x.neg (x.mag + 2 ^ 51) else x

/-- NaN operands propagate, the first one first (x86-64 SSE2). -/
def nanOr (x y : F64) (k : F64) : F64 :=
  if x.isNaN then x.quiet else if y.isNaN then y.quiet else k

/-- C double addition. -/
def add (x y : F64) : F64 :=
  nanOr x y <|
    if x.isInf then (if y.isInf && x.neg != y.neg then defaultNaN else x)
    else if y.isInf then y
    else ofRat (x.neg && y.neg) (x.toRat + y.toRat)

def negate (x : F64) : F64 := { x with neg := !x.neg }

/-- C double subtraction. -/
def sub (x y : F64) : F64 :=
  nanOr x y <| add x y.negate

/-- C double multiplication. -/
def mul (x y : F64) : F64 :=
  nanOr x y <|
    if x.isInf || y.isInf then
      (if x.mag = 0 || y.mag = 0 then defaultNaN else mk' (x.neg != y.neg) inf64)
    else ofRat (x.neg != y.neg) (x.toRat * y.toRat)

/-- `x / 2` for a Python float `x`. -/
def half (x : F64) : F64 :=
  if x.isNaN then x.quiet else if x.isInf then x else ofRat x.neg (x.toRat / 2)

/-- Position of a non-NaN double on the number line (both zeros at 0). -/
def key (x : F64) : ℤ := if x.neg then - (x.mag : ℤ) else x.mag

/-- C `x < y`; false when one of them is a NaN. -/
def lt' (x y : F64) : Bool := !x.isNaN && !y.isNaN && decide (x.key < y.key)

/-- C `x == y`; false when one of them is a NaN. -/
def feq (x y : F64) : Bool := !x.isNaN && !y.isNaN && decide (x.key = y.key)

end F64

/-- `(double)x` for the binary32 with bits `w`: `struct.unpack('f')`.  Finite values convert
exactly; a NaN keeps sign and payload and becomes quiet. -/
def unpackF (w : BitVec 32) : F64 :=
  let neg : Bool := decide (2 ^ 31 ≤ w.toNat)
  let mag := w.toNat % 2 ^ 31
  if mag < inf32 then F64.mk' neg (encMag 52 (-1074) (decMag 23 (-149) mag))
  else if mag = inf32 then F64.mk' neg inf64
  else F64.quiet (F64.mk' neg (inf64 + (mag - inf32) * 2 ^ 29))

/-- Quiet bit of binary32 magnitude bits. -/
def quiet32 (mag : ℕ) : ℕ := if mag / 2 ^ 22 % 2 = 0 then mag + 2 ^ 22 else mag

/-- `(float)x`: `struct.pack('f')` in native mode.  Values too large become infinities (native mode
does not raise `OverflowError`); a NaN keeps sign and the top of its payload and becomes quiet. -/
def packF (x : F64) : BitVec 32 :=
  let mag :=
    if x.mag < inf64 then min inf32 (encMag 23 (-149) (decMag 52 (-1074) x.mag))
    else if x.mag = inf64 then inf32
    else quiet32 (inf32 + (x.mag - inf64) / 2 ^ 29)
  BitVec.ofNat 32 ((if x.neg then 2 ^ 31 else 0) + mag)

/-- `int(q)` for a finite float `q`. -/
def truncQ (q : ℚ) : ℤ := if q < 0 then -⌊-q⌋ else ⌊q⌋

/-- `int(a / b)` for Python ints, `b ≠ 0`: one correctly rounded true division, then truncation.
(`visiblemesh.py` lines 271, 303, 387, 570.) -/
def intTrueDiv (a b : ℤ) : ℤ := truncQ (rndVal 52 (-1074) ((a : ℚ) / b))

/-- `int(a / b * n)` for Python ints, `b ≠ 0`: true division, conversion of `n` to a double, and a
multiplication, each correctly rounded, then truncation.  (`visiblemesh.py` line 165.)  The ints are
C longs, so no overflow to infinity can occur. -/
def intDivMul (a b n : ℤ) : ℤ :=
  truncQ (rndVal 52 (-1074) (rndVal 52 (-1074) ((a : ℚ) / b) * rndVal 52 (-1074) (n : ℚ)))

end Bf2
