import Verif.FloatLemmas
import Verif.Spec

/-! # Packing and unpacking binary32: the round trip -/

namespace Bf2

/-- Python floats are read and written through binary32. -/
instance : FCodec F64 := ⟨unpackF, packF⟩

theorem SNaN_iff (w : BitVec 32) :
    SNaN w ↔ inf32 < w.toNat % 2 ^ 31 ∧ w.toNat % 2 ^ 31 / 2 ^ 22 % 2 = 0 := by
  have hlt := w.isLt
  have h1 : w.extractLsb 30 23 = 255#8 ↔ w.toNat / 2 ^ 23 % 256 = 255 := by
    rw [← BitVec.toNat_inj, BitVec.extractLsb_toNat, Nat.shiftRight_eq_div_pow]; simp
  have h2 : w.getLsbD 22 = false ↔ w.toNat / 2 ^ 22 % 2 = 0 := by
    rw [BitVec.getLsbD, Nat.testBit_eq_decide_div_mod_eq]; simp
  have h3 : w.extractLsb 21 0 ≠ 0#22 ↔ w.toNat % 2 ^ 22 ≠ 0 := by
    rw [Ne, ← BitVec.toNat_inj, BitVec.extractLsb_toNat]; simp
  unfold SNaN
  rw [h1, h2, h3]
  simp only [inf32]
  omega

theorem quieted_toNat (w : BitVec 32) :
    (quieted w).toNat = if SNaN w then w.toNat + 2 ^ 22 else w.toNat := by
  unfold quieted
  split
  · next h =>
    have h2 : w &&& 0x00400000#32 = 0#32 := by
      have : (0x00400000#32) = BitVec.twoPow 32 22 := by decide
      rw [this, BitVec.and_twoPow, h.2.1]
      rfl
    rw [← BitVec.add_eq_or_of_and_eq_zero _ _ h2, BitVec.toNat_add]
    rw [SNaN_iff] at h
    have := w.isLt
    simp only [BitVec.toNat_ofNat]
    omega
  · rfl

theorem mk'_mag {neg : Bool} {m : ℕ} (h : m < 2 ^ 63) : (F64.mk' neg m).mag = m := by
  simp only [F64.mk']; exact Nat.mod_eq_of_lt h

/-- The double a finite binary32 magnitude becomes. -/
theorem unpack_fin {mag : ℕ} (h : mag < inf32) :
    encMag 52 (-1074) (decMag 23 (-149) mag) < inf64 ∧
    decMag 52 (-1074) (encMag 52 (-1074) (decMag 23 (-149) mag)) = decMag 23 (-149) mag := by
  have hn := decMag_nonneg 23 (-149) mag
  constructor
  · have h1 := decMag_lt 23 (-149) mag 254 (by simp only [inf32] at h; omega) (by norm_num)
    have h2 := encMag_le 52 (-1074) hn 128 (by norm_num) (by convert h1 using 2; norm_num)
    norm_num at h2
    simp only [inf64]
    omega
  · rw [dec_enc _ _ hn]
    obtain ⟨m, e, hm, he, hr, _⟩ := decMag_form 23 (-149) mag
    refine rndMag_exact 52 (-1074) hn m e ?_ (by omega) hr
    exact hm.le.trans (by norm_num)

/-- Magnitude bits `packF` writes for magnitude bits of a double. -/
def packMag (m : ℕ) : ℕ :=
  if m < inf64 then min inf32 (encMag 23 (-149) (decMag 52 (-1074) m))
  else if m = inf64 then inf32
  else quiet32 (inf32 + (m - inf64) / 2 ^ 29)

theorem packF_eq (x : F64) :
    packF x = BitVec.ofNat 32 ((if x.neg then 2 ^ 31 else 0) + packMag x.mag) := rfl

theorem packMag_lt {m : ℕ} (h : m < 2 ^ 63) : packMag m < 2 ^ 31 := by
  unfold packMag
  split
  · have := min_le_left inf32 (encMag 23 (-149) (decMag 52 (-1074) m))
    simp only [inf32] at *
    omega
  · split
    · simp only [inf32]; omega
    · simp only [quiet32, inf32, inf64] at *
      split <;> omega

theorem packF_toNat (x : F64) :
    (packF x).toNat = (if x.neg then 2 ^ 31 else 0) + packMag x.mag := by
  have := packMag_lt x.lt
  rw [packF_eq, BitVec.toNat_ofNat]
  split <;> omega

theorem mk'_neg (neg : Bool) (m : ℕ) : (F64.mk' neg m).neg = neg := rfl

theorem quiet_neg (x : F64) : x.quiet.neg = x.neg := by
  unfold F64.quiet
  split
  · exact mk'_neg _ _
  · rfl

theorem unpackF_neg (w : BitVec 32) : (unpackF w).neg = decide (2 ^ 31 ≤ w.toNat) := by
  simp only [unpackF]
  split
  · rfl
  · split
    · rfl
    · rw [quiet_neg]; rfl

/-- Magnitude bits of the double read from a binary32 magnitude. -/
def unpackMag (mag : ℕ) : ℕ :=
  if mag < inf32 then encMag 52 (-1074) (decMag 23 (-149) mag)
  else if mag = inf32 then inf64
  else if mag / 2 ^ 22 % 2 = 0 then inf64 + (mag - inf32) * 2 ^ 29 + 2 ^ 51
  else inf64 + (mag - inf32) * 2 ^ 29

theorem unpackF_mag (w : BitVec 32) : (unpackF w).mag = unpackMag (w.toNat % 2 ^ 31) := by
  have hml : w.toNat % 2 ^ 31 < 2 ^ 31 := Nat.mod_lt _ (by norm_num)
  simp only [unpackF, unpackMag]
  generalize w.toNat % 2 ^ 31 = mag at *
  split
  · next h1 =>
    obtain ⟨hE, _⟩ := unpack_fin h1
    exact mk'_mag (by simp only [inf64] at hE; omega)
  · split
    · exact mk'_mag (show 2047 * 2 ^ 52 < 2 ^ 63 by norm_num)
    · next h1 h2 =>
      have hm : inf64 + (mag - inf32) * 2 ^ 29 < 2 ^ 63 := by
        simp only [inf64, inf32] at *; omega
      simp only [F64.quiet, mk'_mag hm]
      have : (inf64 + (mag - inf32) * 2 ^ 29) / 2 ^ 51 % 2 = 0 ↔ mag / 2 ^ 22 % 2 = 0 := by
        obtain ⟨d, rfl⟩ := Nat.exists_eq_add_of_le (Nat.le_of_not_lt h1)
        rw [Nat.add_sub_cancel_left]
        simp only [inf64, inf32] at *; omega
      by_cases hq : mag / 2 ^ 22 % 2 = 0
      · have hm' : inf64 + (mag - inf32) * 2 ^ 29 + 2 ^ 51 < 2 ^ 63 := by
          simp only [inf64, inf32] at *; omega
        rw [if_pos (this.2 hq), if_pos hq, mk'_mag hm']
      · rw [if_neg (mt this.1 hq), if_neg hq, mk'_mag hm]

theorem packMag_unpackMag {mag : ℕ} (h : mag < 2 ^ 31) :
    packMag (unpackMag mag) =
      if inf32 < mag ∧ mag / 2 ^ 22 % 2 = 0 then mag + 2 ^ 22 else mag := by
  by_cases h1 : mag < inf32
  · obtain ⟨hE, hd⟩ := unpack_fin h1
    rw [unpackMag, if_pos h1, packMag, if_pos hE, hd, enc_dec, min_eq_right h1.le,
      if_neg (by omega)]
  · by_cases h2 : mag = inf32
    · subst h2
      rw [unpackMag, if_neg h1, if_pos rfl, packMag, if_neg (lt_irrefl _), if_pos rfl,
        if_neg (by omega)]
    · rw [unpackMag, if_neg h1, if_neg h2]
      by_cases hq : mag / 2 ^ 22 % 2 = 0
      · have hx : inf32 + (inf64 + (mag - inf32) * 2 ^ 29 + 2 ^ 51 - inf64) / 2 ^ 29
            = mag + 2 ^ 22 := by simp only [inf64, inf32] at *; omega
        rw [if_pos hq, packMag, if_neg (by omega), if_neg (by omega), hx, if_pos ⟨by omega, hq⟩,
          quiet32, if_neg (by omega)]
      · have hx : inf32 + (inf64 + (mag - inf32) * 2 ^ 29 - inf64) / 2 ^ 29 = mag := by
          simp only [inf64, inf32] at *; omega
        have hy : ¬ inf64 + (mag - inf32) * 2 ^ 29 = inf64 := by
          simp only [inf64, inf32] at *; omega
        rw [if_neg hq, packMag, if_neg (by omega), if_neg hy, hx, if_neg (fun h => hq h.2),
          quiet32, if_neg hq]

/-- Reading a binary32 word into a double and writing it back sets the quiet bit of signalling
NaNs and is the identity on every other word. -/
theorem packF_unpackF (w : BitVec 32) : packF (unpackF w) = quieted w := by
  have hlt := w.isLt
  have hml : w.toNat % 2 ^ 31 < 2 ^ 31 := Nat.mod_lt _ (by norm_num)
  rw [← BitVec.toNat_inj, quieted_toNat, if_congr (SNaN_iff w) rfl rfl, packF_toNat, unpackF_neg,
    unpackF_mag, packMag_unpackMag hml]
  simp only [decide_eq_true_eq]
  split_ifs <;> omega

/-- `pack` never writes a signalling NaN. -/
theorem not_SNaN_packF (x : F64) : ¬ SNaN (packF x) := by
  rw [SNaN_iff]
  have hlt := packMag_lt x.lt
  have hm : (packF x).toNat % 2 ^ 31 = packMag x.mag := by
    rw [packF_toNat]; split <;> omega
  rw [hm]
  rintro ⟨h1, h2⟩
  unfold packMag at h1 h2
  split_ifs at h1 h2 with ha hb
  · have := min_le_left inf32 (encMag 23 (-149) (decMag 52 (-1074) x.mag))
    omega
  · omega
  · unfold quiet32 at h1 h2
    split_ifs at h1 h2 with hc
    · omega
    · exact hc h2

theorem quieted_of_not {w : BitVec 32} (h : ¬ SNaN w) : quieted w = w := by
  simp [quieted, h]

/-- One trip through binary32 is enough. -/
theorem packF_unpackF_packF (x : F64) : packF (unpackF (packF x)) = packF x := by
  rw [packF_unpackF, quieted_of_not (not_SNaN_packF x)]

end Bf2
