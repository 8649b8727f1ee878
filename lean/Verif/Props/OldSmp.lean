import Verif.OldSmpLemmas
import Verif.FloatCodec

/-! # C157: records of sample files -/

namespace Bf2

variable {F : Type} [FCodec F]

/-- `smp_sample.read` never depends on what the object held: from a file of at least 28 bytes (32 if
C `long` has 8) it takes exactly these, the position from the first 12, the rotation from the next 12,
the face from the rest. From a shorter one it takes all and raises `struct.error`; the fields whose
bytes were there are set, the others are kept. -/
theorem C157_sample (pl : Plat) (s : SmpSample F) (file : Bytes) :
    s.read pl file =
      (⟨fieldIn pl file 0 s.position, fieldIn pl file 12 s.rotation,
          if 24 + pl.longSize ≤ file.length then some (longIn pl file 24) else s.face⟩,
        file.drop (24 + pl.longSize),
        if 24 + pl.longSize ≤ file.length then none else some .structError) := by
  have h0 := readFloat3_drop (F := F) pl file 0
  rw [List.drop_zero] at h0
  have hl : 4 ≤ pl.longSize := by unfold Plat.longSize; split <;> omega
  unfold SmpSample.read setField fieldIn
  rw [h0]
  by_cases h1 : 0 + 12 ≤ file.length
  · rw [if_pos h1, if_pos h1]
    simp only
    rw [show 0 + 12 = 12 from rfl, readFloat3_drop]
    by_cases h2 : 12 + 12 ≤ file.length
    · rw [if_pos h2, if_pos h2]
      simp only
      rw [show 12 + 12 = 24 from rfl, readLong_drop]
      by_cases h3 : 24 + pl.longSize ≤ file.length
      · rw [if_pos h3, if_pos h3, if_pos h3]
      · rw [if_neg h3, if_neg h3, if_neg h3, List.drop_eq_nil_of_le (by omega)]
    · rw [if_neg h2, if_neg h2, if_neg (by omega), if_neg (by omega), List.drop_eq_nil_of_le (by omega)]
  · rw [if_neg h1, if_neg h1, if_neg (by omega), if_neg (by omega), if_neg (by omega),
      List.drop_eq_nil_of_le (by omega)]

/-- `smp_face.read` takes 72 bytes: the six vectors v1, n1, v2, n2, v3, n3 in this order; from a
shorter file it takes all and raises `struct.error`, with the vectors that were there set. -/
theorem C157_face (pl : Plat) (s : SmpFace F) (file : Bytes) :
    s.read pl file =
      (⟨fieldIn pl file 0 s.v1, fieldIn pl file 12 s.n1, fieldIn pl file 24 s.v2,
          fieldIn pl file 36 s.n2, fieldIn pl file 48 s.v3, fieldIn pl file 60 s.n3⟩,
        file.drop 72, if 72 ≤ file.length then none else some .structError) := by
  have h0 := readFloat3_drop (F := F) pl file 0
  rw [List.drop_zero] at h0
  unfold SmpFace.read setField fieldIn
  rw [h0]
  by_cases h1 : 0 + 12 ≤ file.length
  · rw [if_pos h1, if_pos h1]
    simp only
    rw [show 0 + 12 = 12 from rfl, readFloat3_drop]
    by_cases h2 : 12 + 12 ≤ file.length
    · rw [if_pos h2, if_pos h2]
      simp only
      rw [show 12 + 12 = 24 from rfl, readFloat3_drop]
      by_cases h3 : 24 + 12 ≤ file.length
      · rw [if_pos h3, if_pos h3]
        simp only
        rw [show 24 + 12 = 36 from rfl, readFloat3_drop]
        by_cases h4 : 36 + 12 ≤ file.length
        · rw [if_pos h4, if_pos h4]
          simp only
          rw [show 36 + 12 = 48 from rfl, readFloat3_drop]
          by_cases h5 : 48 + 12 ≤ file.length
          · rw [if_pos h5, if_pos h5]
            simp only
            rw [show 48 + 12 = 60 from rfl, readFloat3_drop]
            by_cases h6 : 60 + 12 ≤ file.length
            · rw [if_pos h6, if_pos h6, if_pos (by omega)]
            · rw [if_neg h6, if_neg h6, if_neg (by omega), List.drop_eq_nil_of_le (by omega)]
          · simp only [if_neg h5]
            rw [if_neg (by omega), if_neg (by omega), List.drop_eq_nil_of_le (by omega)]
        · simp only [if_neg h4]
          rw [if_neg (by omega), if_neg (by omega), if_neg (by omega), List.drop_eq_nil_of_le (by omega)]
      · simp only [if_neg h3]
        rw [if_neg (by omega), if_neg (by omega), if_neg (by omega), if_neg (by omega),
          List.drop_eq_nil_of_le (by omega)]
    · simp only [if_neg h2]
      rw [if_neg (by omega), if_neg (by omega), if_neg (by omega), if_neg (by omega), if_neg (by omega),
        List.drop_eq_nil_of_le (by omega)]
  · simp only [if_neg h1]
    rw [if_neg (by omega), if_neg (by omega), if_neg (by omega), if_neg (by omega), if_neg (by omega),
      if_neg (by omega), List.drop_eq_nil_of_le (by omega)]

/-- The records of the format have 28 bytes. Where C `long` has 8 bytes, reading one takes 4 bytes of
the record behind it, so of two records read one after the other the second has the wrong position:
that in the bytes from 32, not from 28. -/
theorem C157_second_record (pl : Plat) (s t : SmpSample F) (file : Bytes) (long : pl.long8 = true)
    (two : 56 ≤ file.length) :
    ((t.read pl (s.read pl file).2.1).1).position = some (float3In pl file 32) ∧
      ((t.read { pl with long8 := false } (s.read { pl with long8 := false } file).2.1).1).position =
        some (float3In pl file 28) := by
  have e : ∀ (q : Plat) (k : Nat), k + 12 ≤ file.length →
      fieldIn q (file.drop k) 0 t.position = some (float3In q file k) := by
    intro q k hk
    unfold fieldIn
    rw [List.length_drop, if_pos (by omega)]
    simp only [float3In, floatIn, List.drop_drop]
    rfl
  rw [C157_sample, C157_sample, C157_sample, C157_sample]
  have l1 : pl.longSize = 8 := by unfold Plat.longSize; rw [long]; rfl
  constructor
  · rw [l1]
    exact e pl 32 (by omega)
  · exact e _ 28 (by omega)

/-- Two records of 28 bytes with the positions 1, 2, 3 and 4, 5, 6, read on both kinds of platform. -/
example :
    let file : Bytes := ([0x3f800000, 0x40000000, 0x40400000, 0, 0, 0, 7,
      0x40800000, 0x40a00000, 0x40c00000, 0, 0, 0, 9] : List Nat).flatMap (encLE 4)
    let win : Plat := ⟨false, false⟩
    let lin : Plat := ⟨true, false⟩
    let s : SmpSample F64 := {}
    56 ≤ file.length ∧ (s.read win file).1.face = some 7 ∧
    (s.read win (s.read win file).2.1).1.position.map Vec3.x = some (FCodec.unpack 0x40800000#32) ∧
    (s.read lin (s.read lin file).2.1).1.position.map Vec3.x = some (FCodec.unpack 0x40a00000#32) ∧
    (s.read win (file.take 20)).2.2 = some .structError ∧
    (s.read win (file.take 20)).1.position.isSome ∧ (s.read win (file.take 20)).1.rotation = none := by
  decide +kernel

/-- A face of 72 bytes. -/
example :
    let file : Bytes := (List.range 18).flatMap fun k => encLE 4 (0x3f800000 + k)
    let f : SmpFace (BitVec 32) := {}
    (f.read ⟨true, false⟩ file).2.2 = none ∧ (f.read ⟨true, false⟩ file).2.1 = [] ∧
    (f.read ⟨true, false⟩ file).1.n3 = some ⟨0x3f80000f#32, 0x3f800010#32, 0x3f800011#32⟩ := by
  decide +kernel

end Bf2
