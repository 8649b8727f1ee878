import Verif.OldSmp

/-!
# Records of three floats in a file
-/

namespace Bf2

variable {F : Type} [FCodec F]

/-- The float in the four bytes at `k`. -/
def floatIn (pl : Plat) (file : Bytes) (k : Nat) : F :=
  FCodec.unpack (BitVec.ofNat 32 (pl.dec ((file.drop k).take 4)))

/-- The three floats in the twelve bytes at `k`. -/
def float3In (pl : Plat) (file : Bytes) (k : Nat) : Vec3 F :=
  ⟨floatIn pl file k, floatIn pl file (k + 4), floatIn pl file (k + 8)⟩

/-- The vector at `k` if the file has twelve bytes there, otherwise the old one. -/
def fieldIn (pl : Plat) (file : Bytes) (k : Nat) (old : Option (Vec3 F)) : Option (Vec3 F) :=
  if k + 12 ≤ file.length then some (float3In pl file k) else old

/-- The C `long` at `k`, in two's complement. -/
def longIn (pl : Plat) (file : Bytes) (k : Nat) : Int :=
  toSigned pl.longSize (pl.dec ((file.drop k).take pl.longSize))

end Bf2
