import Verif.SnapSpec
import Verif.Props.Half

/-!
# A turned vector whose exact place is in binary32 is saved exactly (C192)
-/

namespace Bf2

open Real

/-- What is stored for a double close to a number of binary32 is that number. -/
theorem stored_snaps {y : F64} {w : ℚ} {δ : ℝ} (fy : y.isFin = true) (hw : Binary32 w) (bw : |(w : ℝ)| ≤ 2 ^ 126)
    (hδ : δ ≤ 2 ^ (-300 : ℤ)) (near : |(y.value : ℝ) - w| ≤ 2 ^ (-27 : ℤ) * |(w : ℝ)| + δ) :
    (unpackF (packF y)).isFin = true ∧ (unpackF (packF y)).value = w := by
  obtain ⟨b, hb, rfl⟩ := hw
  have near' : |y.value - val32 b| ≤ 2 ^ (-27 : ℤ) * |val32 b| + 2 ^ (-300 : ℤ) := by
    have h : ((|y.value - val32 b| : ℚ) : ℝ) ≤ ((2 ^ (-27 : ℤ) * |val32 b| + 2 ^ (-300 : ℤ) : ℚ) : ℝ) := by
      push_cast
      exact near.trans (add_le_add_right hδ _)
    exact Rat.cast_le.1 h
  have bw' : |val32 b| ≤ 2 ^ 126 := by exact_mod_cast bw
  clear near hδ bw
  have t2 : (2 : ℚ) ^ (-300 : ℤ) = 2 ^ (-151 : ℤ) * 2 ^ (-149 : ℤ) := by
    rw [← zpow_add₀ (by norm_num)]; norm_num
  have t1 : (2 : ℚ) ^ (-151 : ℤ) ≤ 2 ^ (-60 : ℤ) := zpow_le_zpow_right₀ (by norm_num) (by norm_num)
  have t3 : (0 : ℚ) < 2 ^ (-149 : ℤ) := by positivity
  have t4 : (2 : ℚ) ^ (-149 : ℤ) ≤ 1 := zpow_le_one_of_nonpos₀ (by norm_num) (by norm_num)
  have small : (2 : ℚ) ^ (-300 : ℤ) ≤ 2 ^ (-60 : ℤ) * 2 ^ (-149 : ℤ) :=
    t2.le.trans (mul_le_mul_of_nonneg_right t1 t3.le)
  have lw : val32 b ≠ 0 → 2 ^ (-149 : ℤ) ≤ |val32 b| := single_least hb
  have lp : ¬ Special32 (packF y) → val32 (packF y) ≠ 0 → 2 ^ (-149 : ℤ) ≤ |val32 (packF y)| := single_least
  clear t1 t2
  generalize (2 : ℚ) ^ (-300 : ℤ) = t at *
  generalize (2 : ℚ) ^ (-149 : ℤ) = d at *
  have hy : |y.value| ≤ 2 ^ 127 := by
    have := abs_add_le (y.value - val32 b) (val32 b)
    rw [sub_add_cancel] at this
    norm_num at *
    linarith [abs_nonneg (val32 b)]
  obtain ⟨hs, -⟩ := pack_error fy hy
  obtain ⟨f1, v1⟩ := C51_read_exact _ hs
  have n1 := pack_nearest hs b
  rw [v1]
  refine ⟨f1, ?_⟩
  have n2 : |val32 (packF y) - val32 b| ≤ 2 * |y.value - val32 b| := by
    have := abs_sub_le (val32 (packF y)) y.value (val32 b)
    rw [abs_sub_comm (val32 (packF y)) y.value] at this
    linarith
  by_contra hne
  have gap := single_gap hs hb hne
  by_cases h0 : val32 b = 0
  · rw [h0] at n2 near' hne
    rw [abs_zero] at near'
    have := lp hs hne
    rw [sub_zero] at n2 near'
    norm_num at *
    linarith
  · have := lw h0
    norm_num at *
    linarith

section
variable [Libm F64]

/-- **C192.** Turned by any angles, saved, loaded: a coordinate whose exact new value is a number of binary32, and
at least `2^-18` of the length of the vector, has exactly this value. -/
theorem C192_exact {vs : Nat} {m : Mesh F64} (wf : MeshWF m) (tiled : TiledVerts vs m)
    (float3 : Float3Vectors vs m) (apart : m.vattrs.Pairwise (Apart m.vertformat))
    {ε : ℝ} (small : ε ≤ 2 ^ (-50 : ℤ)) {yaw pitch roll : F64} (hy : TrigWithin ε yaw) (hp : TrigWithin ε pitch)
    (hr : TrigWithin ε roll) (rest : List F64) {pl : Plat} {file : Bytes}
    (saved : exportMesh pl (rotate m (yaw :: pitch :: roll :: rest)).1 = ⟨file, none⟩) :
    ∃ m' : Mesh F64, load pl m.kind file = .ok m' ∧
      ∀ a ∈ m.vattrs, VectorAttr a → ∀ o, StartsAt m.vertformat a o → ∀ v x,
        vec3At m.vertices (v * vs + o) = some x → x.Finite → x.real.len ≤ 2 ^ 120 →
        ∃ x' : Vec3 F64, vec3At m'.vertices (v * vs + o) = some x' ∧ x'.Finite ∧
          ∀ i (w : ℚ), Binary32 w → (rotMat yaw.value pitch.value roll.value).mulVec x.real.fn i = w →
            x.real.len ≤ 2 ^ 18 * |(w : ℝ)| → x'.real.fn i = w := by
  have small1 : ε ≤ 1 := small.trans (zpow_le_one_of_nonpos₀ (by norm_num) (by norm_num))
  obtain ⟨m1, k1, k2⟩ := C127_rotate_saved wf tiled float3 apart small1 hy hp hr rest saved
  obtain ⟨l, h1, hlen, h2⟩ := rotate_near tiled float3 apart small1 hy hp hr rest
  rw [h1] at saved
  have wf' : MeshWF { m with vertices := l } :=
    ⟨wf.geoms, wf.geom, wf.vattrs, wf.vertformat, by
      rw [show ({ m with vertices := l } : Mesh F64).vertices.length = m.vertices.length from hlen]
      exact wf.vertices, by
      rw [show ({ m with vertices := l } : Mesh F64).vertices.length = m.vertices.length from hlen]
      exact wf.not_one, wf.index, wf.u2⟩
  have hm := C02_reload_of_export pl { m with vertices := l } file wf' saved
  obtain rfl := Except.ok.inj (k1.symm.trans hm)
  refine ⟨_, k1, ?_⟩
  intro a ha hav o ho v x hx hf hb
  obtain ⟨x1, hx1, fin, -⟩ := k2 a ha hav o ho v x hx hf hb
  obtain ⟨x', X, h3, h4, h5, h6⟩ := h2 a ha hav o ho v x hx hf
    (hb.trans (pow_le_pow_right₀ (by norm_num) (by norm_num)))
  have hρ := len_nonneg x.real
  have e : x1 = x'.map fun y => unpackF (packF y) := by
    have e1 : vec3At (l.map fun y => unpackF (packF y)) (v * vs + o) = some x1 := hx1
    rw [vec3At_map, h3] at e1
    exact (Option.some.inj e1).symm
  obtain ⟨cx, cy, cz⟩ := comp_le hρ (V := X) (by rw [← len_sq, h5])
  have t1 : (2 : ℝ) ^ (-1070 : ℤ) ≤ 2 ^ (-300 : ℤ) := zpow_le_zpow_right₀ (by norm_num) (by norm_num)
  have one : ∀ (y : F64) (c : ℝ) (w : ℚ), y.isFin = true → Binary32 w → c = w → |c| ≤ x.real.len →
      |(y.value : ℝ) - c| ≤ (15 * ε + 2 ^ (-47 : ℤ)) * x.real.len + 2 ^ (-1070 : ℤ) →
      x.real.len ≤ 2 ^ 18 * |(w : ℝ)| → ((unpackF (packF y)).value : ℝ) = w := by
    rintro y c w fy hw rfl bc near big
    have b1 : |(w : ℝ)| ≤ 2 ^ 126 := bc.trans (hb.trans (pow_le_pow_right₀ (by norm_num) (by norm_num)))
    have b2 : (15 * ε + 2 ^ (-47 : ℤ)) * x.real.len ≤ 2 ^ (-45 : ℤ) * x.real.len := by
      refine mul_le_mul_of_nonneg_right ?_ hρ
      norm_num at *
      linarith
    have b3 : (2 : ℝ) ^ (-45 : ℤ) * x.real.len ≤ 2 ^ (-27 : ℤ) * |(w : ℝ)| := by
      norm_num at *
      linarith
    rw [(stored_snaps fy hw b1 t1 (near.trans (add_le_add_left (b2.trans b3) _))).2]
  refine ⟨x1, hx1, fin, fun i w hw hi big => ?_⟩
  rw [← h4] at hi
  rw [e]
  fin_cases i
  · exact one x'.x X.x w h6.fin.1 hw hi cx h6.x big
  · exact one x'.y X.y w h6.fin.2.1 hw hi cy h6.y big
  · exact one x'.z X.z w h6.fin.2.2 hw hi cz h6.z big

end

/-- Cosine and sine of a multiple of 90 degrees. -/
theorem right_cases (k : ℤ) : (cos (deg (90 * k)) = 1 ∧ sin (deg (90 * k)) = 0) ∨
    (cos (deg (90 * k)) = 0 ∧ sin (deg (90 * k)) = 1) ∨ (cos (deg (90 * k)) = -1 ∧ sin (deg (90 * k)) = 0) ∨
    (cos (deg (90 * k)) = 0 ∧ sin (deg (90 * k)) = -1) := by
  obtain ⟨q, r, hr, rfl⟩ : ∃ q r : ℤ, (r = 0 ∨ r = 1 ∨ r = 2 ∨ r = 3) ∧ k = 4 * q + r :=
    ⟨k / 4, k % 4, by omega, by omega⟩
  have e : deg (90 * ((4 * q + r : ℤ) : ℝ)) = r * (π / 2) + q * (2 * π) := by
    unfold deg; push_cast; ring
  rw [e, cos_add_int_mul_two_pi, sin_add_int_mul_two_pi]
  rcases hr with rfl | rfl | rfl | rfl
  · left; simp
  · right; left; simp
  · right; right; left
    rw [show ((2 : ℤ) : ℝ) * (π / 2) = π by push_cast; ring]; simp
  · right; right; right
    rw [show ((3 : ℤ) : ℝ) * (π / 2) = π / 2 + π by push_cast; ring, cos_add_pi, sin_add_pi]; simp

/-- Every coordinate is one of `x`, or its negative. -/
def Permuted (x v : Vec3 ℝ) : Prop :=
  ∀ c ∈ [v.x, v.y, v.z], ∃ d ∈ [x.x, x.y, x.z], c = d ∨ c = -d

theorem permuted_iff {x v : Vec3 ℝ} : Permuted x v ↔ (∃ d ∈ [x.x, x.y, x.z], v.x = d ∨ v.x = -d) ∧
    (∃ d ∈ [x.x, x.y, x.z], v.y = d ∨ v.y = -d) ∧ ∃ d ∈ [x.x, x.y, x.z], v.z = d ∨ v.z = -d := by
  unfold Permuted
  simp only [List.forall_mem_cons, List.not_mem_nil, false_imp_iff, implies_true, and_true]

theorem permuted_neg {x : Vec3 ℝ} {c : ℝ} (h : ∃ d ∈ [x.x, x.y, x.z], c = d ∨ c = -d) :
    ∃ d ∈ [x.x, x.y, x.z], -c = d ∨ -c = -d := by
  obtain ⟨d, hd, rfl | rfl⟩ := h
  · exact ⟨c, hd, .inr rfl⟩
  · exact ⟨d, hd, .inl (neg_neg d)⟩

theorem permuted_turn {x v : Vec3 ℝ} (h : Permuted x v) (k : ℤ) :
    Permuted x (rotYaw v (cos (deg (90 * k))) (sin (deg (90 * k)))) ∧
    Permuted x (rotPitch v (cos (deg (90 * k))) (sin (deg (90 * k)))) ∧
    Permuted x (rotRoll v (cos (deg (90 * k))) (sin (deg (90 * k)))) := by
  rw [permuted_iff] at h
  obtain ⟨h1, h2, h3⟩ := h
  have n1 := permuted_neg h1
  have n2 := permuted_neg h2
  have n3 := permuted_neg h3
  rw [permuted_iff, permuted_iff, permuted_iff]
  rcases right_cases k with ⟨hc, hs⟩ | ⟨hc, hs⟩ | ⟨hc, hs⟩ | ⟨hc, hs⟩ <;> rw [hc, hs] <;>
    simp only [rotYaw, rotPitch, rotRoll, FArith.add, FArith.sub, FArith.mul, mul_one, mul_zero, add_zero, zero_add,
      sub_zero, zero_sub, mul_neg, sub_neg_eq_add] <;>
    exact ⟨⟨by assumption, by assumption, by assumption⟩, ⟨by assumption, by assumption, by assumption⟩,
      by assumption, by assumption, by assumption⟩

theorem permuted_rot (x : Vec3 ℝ) (i j k : ℤ) :
    ∃ X : Vec3 ℝ, X.fn = (rotMat (90 * i) (90 * j) (90 * k)).mulVec x.fn ∧ Permuted x X := by
  refine ⟨_, rotMap_real _ _ _ x, ?_⟩
  have h0 : Permuted x x := fun c hc => ⟨c, hc, .inl rfl⟩
  exact (permuted_turn (permuted_turn (permuted_turn h0 k).2.2 j).2.1 i).1

section
variable [Libm F64]

/-- **C192.** If all three angles are multiples of 90 degrees, every vector of numbers of binary32 that are not
small beside its length is, after saving and loading, exactly the turned one. -/
theorem C192_right_angles {vs : Nat} {m : Mesh F64} (wf : MeshWF m) (tiled : TiledVerts vs m)
    (float3 : Float3Vectors vs m) (apart : m.vattrs.Pairwise (Apart m.vertformat))
    {ε : ℝ} (small : ε ≤ 2 ^ (-50 : ℤ)) {yaw pitch roll : F64} (hy : TrigWithin ε yaw) (hp : TrigWithin ε pitch)
    (hr : TrigWithin ε roll) (ry : RightAngle yaw) (rp : RightAngle pitch) (rr : RightAngle roll) (rest : List F64)
    {pl : Plat} {file : Bytes}
    (saved : exportMesh pl (rotate m (yaw :: pitch :: roll :: rest)).1 = ⟨file, none⟩) :
    ∃ m' : Mesh F64, load pl m.kind file = .ok m' ∧
      ∀ a ∈ m.vattrs, VectorAttr a → ∀ o, StartsAt m.vertformat a o → ∀ v x,
        vec3At m.vertices (v * vs + o) = some x → Stout x → x.real.len ≤ 2 ^ 120 →
        ∃ x' : Vec3 F64, vec3At m'.vertices (v * vs + o) = some x' ∧ x'.Finite ∧
          x'.real.fn = (rotMat yaw.value pitch.value roll.value).mulVec x.real.fn := by
  obtain ⟨m', h1, h2⟩ := C192_exact wf tiled float3 apart small hy hp hr rest saved
  refine ⟨m', h1, fun a ha hav o ho v x hx stout hb => ?_⟩
  have fin : x.Finite := ⟨(stout x.x (by simp)).1.1, (stout x.y (by simp)).1.1, (stout x.z (by simp)).1.1⟩
  obtain ⟨x', h3, h4, h5⟩ := h2 a ha hav o ho v x hx fin hb
  refine ⟨x', h3, h4, ?_⟩
  obtain ⟨i, hi⟩ := ry
  obtain ⟨j, hj⟩ := rp
  obtain ⟨k, hk⟩ := rr
  obtain ⟨X, hX, perm⟩ := permuted_rot x.real i j k
  rw [hi, hj, hk] at h5 ⊢
  push_cast at h5 ⊢
  rw [← hX] at h5 ⊢
  have one : ∀ c, (∃ d ∈ [x.real.x, x.real.y, x.real.z], c = d ∨ c = -d) →
      ∃ w : ℚ, Binary32 w ∧ c = w ∧ x.real.len ≤ 2 ^ 18 * |(w : ℝ)| := by
    rintro c ⟨d, hd, hc⟩
    obtain ⟨f, hf, rfl⟩ : ∃ f ∈ [x.x, x.y, x.z], d = (f.value : ℝ) := by
      simp only [List.mem_cons, List.not_mem_nil, or_false] at hd
      rcases hd with rfl | rfl | rfl
      exacts [⟨x.x, by simp, rfl⟩, ⟨x.y, by simp, rfl⟩, ⟨x.z, by simp, rfl⟩]
    obtain ⟨single, big⟩ := stout f hf
    rcases hc with rfl | rfl
    · exact ⟨f.value, single.2, rfl, big⟩
    · obtain ⟨w, hw, e⟩ := single_signed single (.inr rfl)
      rw [neg_one_mul] at e
      exact ⟨-f.value, ⟨w, hw, e⟩, by push_cast; rfl, by push_cast; rw [abs_neg]; exact big⟩
  obtain ⟨p1, p2, p3⟩ := permuted_iff.1 perm
  ext n
  have fin3 : ∀ c : ℝ, X.fn n = c → (∃ d ∈ [x.real.x, x.real.y, x.real.z], c = d ∨ c = -d) →
      x'.real.fn n = X.fn n := by
    intro c hc hp
    obtain ⟨w, hw, e, big⟩ := one c hp
    rw [h5 n w hw (hc.trans e) big, hc, e]
  fin_cases n
  exacts [fin3 _ rfl p1, fin3 _ rfl p2, fin3 _ rfl p3]

end

/-! ## A sample -/

theorem roundedTurns_within : @TrigWithin roundedTurns (2 ^ (-52 : ℤ)) (flt 90) ∧
    @TrigWithin roundedTurns (2 ^ (-52 : ℤ)) (flt 180) := by
  have h0 : (F64.ofRat false (4967757600021511 / 2 ^ 106)).value = 4967757600021511 / 2 ^ 106 ∧
      (F64.ofRat false (4967757600021511 / 2 ^ 105)).value = 4967757600021511 / 2 ^ 105 ∧
      (F64.ofRat true (-1)).value = -1 ∧ (flt 1).value = 1 ∧ (flt 90).value = 90 ∧ (flt 180).value = 180 := by
    decide +kernel
  obtain ⟨hc, hs, hm, h1, h90, h180⟩ := h0
  have d90 : deg ((flt 90).value : ℝ) = π / 2 := by rw [h90]; unfold deg; push_cast; ring
  have d180 : deg ((flt 180).value : ℝ) = π := by rw [h180]; unfold deg; push_cast; ring
  refine ⟨⟨F64.ofRat false (4967757600021511 / 2 ^ 106), flt 1, by decide +kernel, by decide +kernel,
    by decide +kernel, by decide +kernel, ?_⟩, ⟨F64.ofRat true (-1), F64.ofRat false (4967757600021511 / 2 ^ 105),
    by decide +kernel, by decide +kernel, by decide +kernel, by decide +kernel, ?_⟩⟩
  · rw [d90, cos_pi_div_two, sin_pi_div_two, hc, h1]
    norm_num [abs_of_pos]
  · rw [d180, cos_pi, sin_pi, hm, hs]
    norm_num [abs_of_pos]

theorem secondVertex_stout : Stout secondVertex := by
  have h : ∀ c ∈ [flt 8, flt 9, flt 10],
      (unpackF (packF c) = c ∧ c.isFin = true ∧ |c.value| ≤ 2 ^ 126) ∧ 1 ≤ |c.value| := by decide +kernel
  intro c hc
  obtain ⟨h1, h2⟩ := h c hc
  refine ⟨(flt_fits h1).1, ?_⟩
  have h3 : (1 : ℝ) ≤ |(c.value : ℝ)| := by exact_mod_cast h2
  have h4 := secondVertex_len.2
  clear h h1 h2
  refine h4.trans ?_
  have h5 : (2 : ℝ) ^ 4 ≤ 2 ^ 18 * 1 := by norm_num
  exact h5.trans (mul_le_mul_of_nonneg_left h3 (by positivity))

theorem turns_saved {a b c : F64} (h : (exportMesh win (@rotate F64 _ roundedTurns counted [a, b, c]).1).err = none) :
    exportMesh win (@rotate F64 _ roundedTurns counted [a, b, c]).1 =
      ⟨(exportMesh win (@rotate F64 _ roundedTurns counted [a, b, c]).1).bytes, none⟩ := by
  rw [← h]

theorem counted_second : vec3At counted.vertices (1 * 8 + 0) = some secondVertex := rfl

theorem secondVertex_bounded : secondVertex.real.len ≤ 2 ^ 120 :=
  secondVertex_len.2.trans (pow_le_pow_right₀ (by norm_num) (by norm_num))

theorem counted_turned : (exportMesh win (@rotate F64 _ roundedTurns counted [flt 180, flt 90, flt 90]).1).err = none := by
  decide +kernel

/-- `(8, 9, 10)` turned at once by 180 degrees of yaw and 90 of pitch and roll, saved, is read back as the exactly
turned vector. -/
example : ∃ m' : Mesh F64, load win counted.kind
      (exportMesh win (@rotate F64 _ roundedTurns counted [flt 180, flt 90, flt 90]).1).bytes = .ok m' ∧
    ∃ x', vec3At m'.vertices (1 * 8 + 0) = some x' ∧ x'.Finite ∧
      x'.real.fn = (rotMat (flt 180).value (flt 90).value (flt 90).value).mulVec secondVertex.real.fn := by
  let _ : Libm F64 := roundedTurns
  obtain ⟨w90, w180⟩ := roundedTurns_within
  have r90 : RightAngle (flt 90) := ⟨1, by decide +kernel⟩
  have r180 : RightAngle (flt 180) := ⟨2, by decide +kernel⟩
  obtain ⟨m', h1, h2⟩ := C192_right_angles (rotatable_wf _ _ (by decide)) (rotatable_tiled _ _ (by decide))
    (rotatable_float3 _ _) (rotatable_apart _ _) (zpow_le_zpow_right₀ (by norm_num) (by norm_num)) w180 w90 w90
    r180 r90 r90 [] (turns_saved counted_turned)
  exact ⟨m', h1, h2 ⟨0, 0, 2, 0⟩ (by decide +kernel) (by decide) 0 (show StartsAt 4 _ _ by decide) 1 secondVertex
    counted_second secondVertex_stout secondVertex_bounded⟩

end Bf2
