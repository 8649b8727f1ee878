import Verif.OldSmpSpec

/-! # Lemmas on reading sample records -/

namespace Bf2

variable {F : Type} [FCodec F]

theorem readFloat1_drop (pl : Plat) (file : Bytes) (k : Nat) :
    readFloat1 (F := F) pl (file.drop k) =
      if k + 4 ≤ file.length then .ok (floatIn pl file k, file.drop (k + 4)) else .error .structError := by
  show (readBytes 4 >>= _) _ = _
  rw [P.bind_run]
  unfold readBytes
  rw [List.length_drop]
  by_cases h : k + 4 ≤ file.length
  · rw [if_pos (by omega), if_pos h, List.drop_drop]
    rfl
  · rw [if_neg (by omega), if_neg h]

theorem readFloat3_drop (pl : Plat) (file : Bytes) (k : Nat) :
    readFloat3 (F := F) pl (file.drop k) =
      if k + 12 ≤ file.length then .ok (float3In pl file k, file.drop (k + 12)) else .error .structError := by
  unfold readFloat3
  rw [P.bind_run, readFloat1_drop]
  by_cases h1 : k + 4 ≤ file.length
  · rw [if_pos h1]
    simp only
    rw [P.bind_run, readFloat1_drop]
    by_cases h2 : k + 4 + 4 ≤ file.length
    · rw [if_pos h2]
      simp only
      rw [P.bind_run, readFloat1_drop]
      by_cases h3 : k + 12 ≤ file.length
      · rw [if_pos (by omega), if_pos h3]; rfl
      · rw [if_neg (by omega), if_neg h3]
    · rw [if_neg h2, if_neg (by omega)]
  · rw [if_neg h1, if_neg (by omega)]

theorem readLong_drop (pl : Plat) (file : Bytes) (k : Nat) :
    readLong pl (file.drop k) = if k + pl.longSize ≤ file.length then
      .ok (longIn pl file k, file.drop (k + pl.longSize)) else .error .structError := by
  show (readBytes _ >>= _) _ = _
  rw [P.bind_run]
  unfold readBytes
  rw [List.length_drop]
  by_cases h : k + pl.longSize ≤ file.length
  · rw [if_pos (by have : 4 ≤ pl.longSize := by unfold Plat.longSize; split <;> omega
                   omega), if_pos h, List.drop_drop]
    rfl
  · rw [if_neg (by have : 4 ≤ pl.longSize := by unfold Plat.longSize; split <;> omega
                   omega), if_neg h]

end Bf2
