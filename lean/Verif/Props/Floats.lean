import Verif.FloatValue

/-!
# Properties of binary32 storage: C51

`unpackF` is `struct.unpack('f', ...)`, `packF` is `struct.pack('f', ...)`.
-/

namespace Bf2

/-- **C51.** A word survives reading and writing back, except that a signalling NaN becomes quiet. -/
theorem C51_word_survives (w : BitVec 32) :
    packF (unpackF w) = quieted w ∧ (¬ SNaN w → packF (unpackF w) = w) :=
  ⟨packF_unpackF w, fun h => by rw [packF_unpackF, quieted_of_not h]⟩

example : ¬ SNaN 0x3f800000 ∧ ¬ SNaN 0x7f800000 ∧ ¬ SNaN 0x7fc12345 ∧ SNaN 0x7f800001 := by decide

/-- **C51.** Rounding twice is rounding once, on words and on doubles. -/
theorem C51_rounding_idempotent (x : F64) :
    packF (unpackF (packF x)) = packF x ∧
    unpackF (packF (unpackF (packF x))) = unpackF (packF x) := by
  rw [packF_unpackF_packF]; exact ⟨rfl, rfl⟩

/-- **C51.** Reading a finite word is exact. -/
theorem C51_read_exact (w : BitVec 32) (h : ¬ Special32 w) :
    (unpackF w).isFin = true ∧ (unpackF w).value = val32 w := by
  rw [special32_iff, not_le] at h
  have hm := unpackF_mag w
  obtain ⟨h1, h2⟩ := unpack_fin h
  unfold unpackMag at hm
  rw [if_pos h] at hm
  refine ⟨by simp only [F64.isFin, hm, decide_eq_true_eq]; exact h1, ?_⟩
  rw [value_eq, val32_eq, hm, h2, unpackF_neg]; rfl

/-- **C51.** Writing is correctly rounded: no binary32 value is nearer than the one written. -/
theorem C51_write_nearest (x : F64) (h : ¬ Special32 (packF x)) (w : BitVec 32) :
    |x.value - val32 (packF x)| ≤ |x.value - val32 w| := pack_nearest h w

/-- **C51.** Ties go to the even word: when another binary32 value is as near, the last bit written is
0. -/
theorem C51_ties_to_even (x : F64) (h : ¬ Special32 (packF x)) (w : BitVec 32)
    (hne : val32 w ≠ val32 (packF x)) (ht : |x.value - val32 w| ≤ |x.value - val32 (packF x)|) :
    (packF x).extractLsb 0 0 = 0 := by
  have := pack_tie h w hne ht
  apply BitVec.eq_of_toNat_eq
  rw [BitVec.extractLsb_toNat]
  simpa using this

/-- 1 + 2^-24 and 1 + 3 * 2^-24, halfway between words: one is rounded down, the other up. -/
example : packF (F64.mk' false 0x3ff0000010000000) = 0x3f800000 ∧
    packF (F64.mk' false 0x3ff0000030000000) = 0x3f800002 ∧
    (F64.mk' false 0x3ff0000010000000).value - val32 0x3f800000 =
      val32 0x3f800001 - (F64.mk' false 0x3ff0000010000000).value := by decide +kernel

/-- **C51.** A finite double is written as an infinity (of its sign) exactly when its magnitude is at
least `2^128 - 2^103`, half a unit above the largest binary32; nothing raises. -/
theorem C51_overflow_to_infinity (x : F64) (h : x.isFin = true) :
    (Special32 (packF x) ↔ (2 ^ 128 - 2 ^ 103 : ℚ) ≤ |x.value|) ∧
    (Special32 (packF x) → packF x = if x.neg then 0xff800000 else 0x7f800000) := by
  simp only [F64.isFin, decide_eq_true_eq] at h
  have hr := decMag_nonneg 52 (-1074) x.mag
  have ha : |x.value| = decMag 52 (-1074) x.mag := by
    rw [value_eq]; cases x.neg <;> simp [abs_of_nonneg hr]
  have hp : packMag x.mag = min inf32 (encMag 23 (-149) (decMag 52 (-1074) x.mag)) := by
    unfold packMag; rw [if_pos h]
  refine ⟨?_, fun hs => ?_⟩
  · rw [special32_iff, packF_mag, hp, ha, ← encMag_inf hr]
    simp
  · rw [special32_iff, packF_mag, hp] at hs
    have : packMag x.mag = inf32 := by rw [hp]; omega
    rw [← BitVec.toNat_inj, packF_toNat, this]
    cases x.neg <;> rfl

/-- 1e300 overflows, 0.1 is rounded to a different value. -/
example : packF (F64.mk' false 0x7e37e43c8800759c) = 0x7f800000 ∧
    (F64.mk' false 0x7e37e43c8800759c).isFin = true ∧
    packF (F64.mk' false 0x3fb999999999999a) = 0x3dcccccd ∧
    unpackF 0x3dcccccd ≠ F64.mk' false 0x3fb999999999999a := by decide +kernel

/-- The sign is kept. -/
theorem C51_sign_kept (x : F64) (w : BitVec 32) :
    (packF x).msb = x.neg ∧ (unpackF w).neg = w.msb := by
  have := packF_sgn x
  rw [BitVec.msb_eq_decide, BitVec.msb_eq_decide, unpackF_neg]
  exact ⟨this, rfl⟩

end Bf2
