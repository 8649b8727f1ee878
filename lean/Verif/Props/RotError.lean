import Verif.RotErrorLemmas
import Verif.Props.Rotate
import Verif.Props.Floats
import Verif.Props.Format
import Verif.ReadmeLemmas

/-!
# How far a rotated mesh is from the exactly rotated one (C126, C127)
-/

namespace Bf2

open Real

/-! ## C126: `rotate` on doubles -/

section
variable [Libm F64]

theorem trig_near {ε : ℝ} {a : F64} (h : TrigWithin ε a) :
    ∃ c s : F64, (Libm.cos (Libm.radians a) = some c ∧ Libm.sin (Libm.radians a) = some s) ∧
      NearCS ε c s (cos (deg a.value)) (sin (deg a.value)) := by
  obtain ⟨c, s, h1, h2, fc, fs, hc, hs, hC, hS⟩ := h
  exact ⟨c, s, ⟨h1, h2⟩, fc, fs, hc, hs, hC, hS, cos_sq_add_sin_sq _⟩

theorem rotate_near {vs : Nat} {m : Mesh F64} (tiled : TiledVerts vs m)
    (float3 : Float3Vectors vs m) (apart : m.vattrs.Pairwise (Apart m.vertformat))
    {ε : ℝ} (small : ε ≤ 1) {yaw pitch roll : F64} (hy : TrigWithin ε yaw) (hp : TrigWithin ε pitch)
    (hr : TrigWithin ε roll) (rest : List F64) :
    ∃ l : List F64, rotate m (yaw :: pitch :: roll :: rest) = ({ m with vertices := l }, none) ∧
      l.length = m.vertices.length ∧
      ∀ a ∈ m.vattrs, VectorAttr a → ∀ o, StartsAt m.vertformat a o → ∀ v x,
        vec3At m.vertices (v * vs + o) = some x → x.Finite → x.real.len ≤ 2 ^ 1000 →
        ∃ x' : Vec3 F64, ∃ X : Vec3 ℝ, vec3At l (v * vs + o) = some x' ∧
          X.fn = (rotMat yaw.value pitch.value roll.value).mulVec x.real.fn ∧ X.len = x.real.len ∧
          NearVec ((15 * ε + 2 ^ (-47 : ℤ)) * x.real.len + 2 ^ (-1070 : ℤ)) x' X := by
  obtain ⟨cy, sy, ty, ny⟩ := trig_near hy
  obtain ⟨cp, sp, tp, np⟩ := trig_near hp
  obtain ⟨cr, sr, tr, nr⟩ := trig_near hr
  obtain ⟨l, h1, h2, _, h4⟩ := rotate_tiled (rest := rest) tiled float3
    (y := yaw) (p := pitch) (r := roll) ⟨ty, tp, tr⟩
  refine ⟨l, h1, h2, ?_⟩
  intro a ha hav o ho v x hx hf hb
  have hn := rotMap_error (len_nonneg x.real) hb small hf (by rw [len_sq]) ny np nr
  have hc := rot_constants (ε := ε) (len_nonneg x.real)
  refine ⟨_, _, by rw [h4 apart a ha hav o ho v, hx]; rfl, rotMap_real _ _ _ x.real,
    len_rot (cos_sq_add_sin_sq _) (cos_sq_add_sin_sq _) (cos_sq_add_sin_sq _) _, ?_⟩
  exact ⟨hn.fin, hn.x.trans hc, hn.y.trans hc, hn.z.trans hc⟩

/-- **C126.** When the C library's cosines and sines are within `ε` of the real ones, `rotate` moves
every position, normal and tangent to within `(15 ε + 2^-47)` times its length (plus `2^-1070`) of
the exactly rotated vector, in every component. -/
theorem C126_rotate_accurate {vs : Nat} {m : Mesh F64} (tiled : TiledVerts vs m)
    (float3 : Float3Vectors vs m) (apart : m.vattrs.Pairwise (Apart m.vertformat))
    {ε : ℝ} (small : ε ≤ 1) {yaw pitch roll : F64} (hy : TrigWithin ε yaw) (hp : TrigWithin ε pitch)
    (hr : TrigWithin ε roll) (rest : List F64) :
    ∃ l : List F64, rotate m (yaw :: pitch :: roll :: rest) = ({ m with vertices := l }, none) ∧
      ∀ a ∈ m.vattrs, VectorAttr a → ∀ o, StartsAt m.vertformat a o → ∀ v x,
        vec3At m.vertices (v * vs + o) = some x → x.Finite → x.real.len ≤ 2 ^ 1000 →
        ∃ x' : Vec3 F64, vec3At l (v * vs + o) = some x' ∧ x'.Finite ∧
          ∀ i, |x'.real.fn i -
              (rotMat yaw.value pitch.value roll.value).mulVec x.real.fn i| ≤
            (15 * ε + 2 ^ (-47 : ℤ)) * x.real.len + 2 ^ (-1070 : ℤ) := by
  obtain ⟨l, h1, -, h2⟩ := rotate_near tiled float3 apart small hy hp hr rest
  refine ⟨l, h1, fun a ha hav o ho v x hx hf hb => ?_⟩
  obtain ⟨x', X, h3, h4, -, h5⟩ := h2 a ha hav o ho v x hx hf hb
  refine ⟨x', h3, h5.fin, fun i => ?_⟩
  rw [← h4]
  fin_cases i
  · exact h5.x
  · exact h5.y
  · exact h5.z

/-- **C126.** Lengths are kept up to twice that error: unit normals stay close to unit length. -/
theorem C126_rotate_length {vs : Nat} {m : Mesh F64} (tiled : TiledVerts vs m)
    (float3 : Float3Vectors vs m) (apart : m.vattrs.Pairwise (Apart m.vertformat))
    {ε : ℝ} (small : ε ≤ 1) {yaw pitch roll : F64} (hy : TrigWithin ε yaw) (hp : TrigWithin ε pitch)
    (hr : TrigWithin ε roll) (rest : List F64) :
    ∃ l : List F64, rotate m (yaw :: pitch :: roll :: rest) = ({ m with vertices := l }, none) ∧
      ∀ a ∈ m.vattrs, VectorAttr a → ∀ o, StartsAt m.vertformat a o → ∀ v x,
        vec3At m.vertices (v * vs + o) = some x → x.Finite → x.real.len ≤ 2 ^ 1000 →
        ∃ x' : Vec3 F64, vec3At l (v * vs + o) = some x' ∧
          |x'.real.len - x.real.len| ≤
            2 * ((15 * ε + 2 ^ (-47 : ℤ)) * x.real.len + 2 ^ (-1070 : ℤ)) := by
  obtain ⟨l, h1, -, h2⟩ := rotate_near tiled float3 apart small hy hp hr rest
  refine ⟨l, h1, fun a ha hav o ho v x hx hf hb => ?_⟩
  obtain ⟨x', X, h3, -, h4, h5⟩ := h2 a ha hav o ho v x hx hf hb
  refine ⟨x', h3, ?_⟩
  have u1 : x'.real.len ≤ X.len + 2 * _ := len_le_of_near (a := x'.real) (b := X) h5.x h5.y h5.z
  have u2 : X.len ≤ x'.real.len + 2 * _ := len_le_of_near (a := X) (b := x'.real)
    ((abs_sub_comm _ _).trans_le h5.x) ((abs_sub_comm _ _).trans_le h5.y)
    ((abs_sub_comm _ _).trans_le h5.z)
  rw [h4] at u1 u2
  rw [abs_le]
  generalize (15 * ε + 2 ^ (-47 : ℤ)) * x.real.len + 2 ^ (-1070 : ℤ) = β at *
  constructor <;> linarith

end

/-- A library that is as accurate as can be asked for: each cosine and sine is the real one rounded
down to a multiple of `2^-52`. -/
@[reducible] noncomputable def goodLibm : Libm F64 :=
  ⟨id, fun a => some (Classical.choose (exists_near_double (abs_sin_le_one (deg a.value)))),
    fun a => some (Classical.choose (exists_near_double (abs_cos_le_one (deg a.value))))⟩

/-- All angles have the cosines and sines asked for. -/
theorem goodLibm_within (a : F64) : @TrigWithin goodLibm (2 ^ (-52 : ℤ)) a := by
  have hc := Classical.choose_spec (exists_near_double (abs_cos_le_one (deg a.value)))
  have hs := Classical.choose_spec (exists_near_double (abs_sin_le_one (deg a.value)))
  exact ⟨_, _, rfl, rfl, hc.1, hs.1, hc.2.1, hs.2.1, hc.2.2, hs.2.2⟩

/-- Two vertices at (0, 1, 2) and (8, 9, 10). -/
noncomputable def turnable2 : Mesh F64 := rotatable F64.zero ((List.range 16).map fun n => flt n)

theorem turnable2_tiled : TiledVerts 8 turnable2 := rotatable_tiled _ _ (by decide)

/-- The position of the second vertex. -/
def secondVertex : Vec3 F64 := ⟨flt 8, flt 9, flt 10⟩

theorem secondVertex_at : vec3At turnable2.vertices (1 * 8 + 0) = some secondVertex := rfl

theorem secondVertex_len : secondVertex.Finite ∧ secondVertex.real.len ≤ 2 ^ 4 := by
  refine ⟨⟨by decide +kernel, by decide +kernel, by decide +kernel⟩, ?_⟩
  have hx : secondVertex.x.value = 8 := by decide +kernel
  have hy : secondVertex.y.value = 9 := by decide +kernel
  have hz : secondVertex.z.value = 10 := by decide +kernel
  unfold Vec3.len Vec3.real
  rw [Real.sqrt_le_left (by norm_num)]
  simp only [hx, hy, hz]
  norm_num

/-- The second vertex, turned by 30, 45 and 60 degrees, is less than `2^-41` off. -/
example : ∃ l : List F64, @rotate F64 _ goodLibm turnable2 [flt 30, flt 45, flt 60] =
      ({ turnable2 with vertices := l }, none) ∧ ∃ x' : Vec3 F64, vec3At l 8 = some x' ∧
      ∀ i, |x'.real.fn i - (rotMat (flt 30).value (flt 45).value (flt 60).value).mulVec
        secondVertex.real.fn i| < 2 ^ (-41 : ℤ) := by
  obtain ⟨l, h1, h2⟩ := @C126_rotate_accurate goodLibm 8 turnable2 turnable2_tiled
    (rotatable_float3 _ _) (rotatable_apart _ _) (2 ^ (-52 : ℤ)) (by norm_num) _ _ _
    (goodLibm_within (flt 30)) (goodLibm_within (flt 45)) (goodLibm_within (flt 60)) []
  refine ⟨l, h1, ?_⟩
  obtain ⟨hf, hl⟩ := secondVertex_len
  obtain ⟨x', h3, -, h4⟩ := h2 ⟨0, 0, 2, 0⟩ (by decide +kernel) (by decide) 0 (by decide) 1 _
    secondVertex_at hf (hl.trans (pow_le_pow_right₀ (by norm_num) (by norm_num)))
  refine ⟨x', h3, fun i => (h4 i).trans_lt ?_⟩
  have e : (2 : ℝ) ^ (-1070 : ℤ) ≤ 2 ^ (-50 : ℤ) := zpow_le_zpow_right₀ (by norm_num) (by norm_num)
  have h0 := len_nonneg secondVertex.real
  generalize (2 : ℝ) ^ (-1070 : ℤ) = t at *
  norm_num at *
  nlinarith

/-! ## C127: saved and loaded again -/

/-- **C127.** A finite double of magnitude at most `2^127` comes back from a file as a finite number
off by at most `2^-24` of it plus `2^-150`. -/
theorem C127_stored_error (x : F64) (hf : x.isFin = true) (hb : |x.value| ≤ 2 ^ 127) :
    (unpackF (packF x)).isFin = true ∧
      |(unpackF (packF x)).value - x.value| ≤
        |x.value| * 2 ^ (-24 : ℤ) + 2 ^ (-150 : ℤ) := by
  obtain ⟨h1, h2⟩ := pack_error hf hb
  obtain ⟨h3, h4⟩ := C51_read_exact _ h1
  refine ⟨h3, ?_⟩
  rw [h4, abs_sub_comm]
  refine h2.trans (le_of_eq ?_)
  rw [show (-24 : ℤ) = -23 - 1 by norm_num, show (-150 : ℤ) = -149 - 1 by norm_num,
    zpow_sub_one₀ (by norm_num : (2 : ℚ) ≠ 0), zpow_sub_one₀ (by norm_num : (2 : ℚ) ≠ 0)]
  rfl

/-- One third is off by a third of `2^-25`, less than the bound. -/
example : |(unpackF (packF (F64.ofRat false (1 / 3)))).value - (F64.ofRat false (1 / 3)).value| ≤
    |(F64.ofRat false (1 / 3)).value| * 2 ^ (-24 : ℤ) + 2 ^ (-150 : ℤ) ∧
    (unpackF (packF (F64.ofRat false (1 / 3)))).value ≠ (F64.ofRat false (1 / 3)).value :=
  ⟨(C127_stored_error _ (by decide +kernel) (by decide +kernel)).2, by decide +kernel⟩

theorem stored_near {x : F64} {X β ρ : ℝ} (hf : x.isFin = true) (h : |(x.value : ℝ) - X| ≤ β)
    (hX : |X| ≤ ρ) (hb : ρ + β ≤ 2 ^ 127) : (unpackF (packF x)).isFin = true ∧
      |((unpackF (packF x)).value : ℝ) - X| ≤ β + (ρ + β) * 2 ^ (-24 : ℤ) + 2 ^ (-150 : ℤ) := by
  have hx : |(x.value : ℝ)| ≤ ρ + β := by
    have := abs_add_le ((x.value : ℝ) - X) X
    rw [sub_add_cancel] at this
    linarith
  have hq : |x.value| ≤ 2 ^ 127 := by exact_mod_cast hx.trans hb
  obtain ⟨h1, h2⟩ := C127_stored_error x hf hq
  refine ⟨h1, ?_⟩
  have h3 : |((unpackF (packF x)).value : ℝ) - x.value| ≤
      |(x.value : ℝ)| * 2 ^ (-24 : ℤ) + 2 ^ (-150 : ℤ) := by
    have := (Rat.cast_le (K := ℝ)).2 h2
    simpa only [Rat.cast_abs, Rat.cast_sub, Rat.cast_add, Rat.cast_mul, Rat.cast_zpow,
      Rat.cast_ofNat] using this
  have h4 := abs_add_le (((unpackF (packF x)).value : ℝ) - x.value) ((x.value : ℝ) - X)
  rw [sub_add_sub_cancel] at h4
  have h5 : |(x.value : ℝ)| * 2 ^ (-24 : ℤ) ≤ (ρ + β) * 2 ^ (-24 : ℤ) :=
    mul_le_mul_of_nonneg_right hx (by positivity)
  generalize (2 : ℝ) ^ (-150 : ℤ) = t at *
  linarith

section
variable [Libm F64]

/-- **C127.** Rotate, save, load: every position, normal and tangent of the loaded mesh is within
`(16 ε + 2^-23)` times its length (plus `2^-149`) of the exactly rotated vector. -/
theorem C127_rotate_saved {vs : Nat} {m : Mesh F64} (wf : MeshWF m) (tiled : TiledVerts vs m)
    (float3 : Float3Vectors vs m) (apart : m.vattrs.Pairwise (Apart m.vertformat))
    {ε : ℝ} (small : ε ≤ 1) {yaw pitch roll : F64} (hy : TrigWithin ε yaw) (hp : TrigWithin ε pitch)
    (hr : TrigWithin ε roll) (rest : List F64) {pl : Plat} {file : Bytes}
    (saved : exportMesh pl (rotate m (yaw :: pitch :: roll :: rest)).1 = ⟨file, none⟩) :
    ∃ m' : Mesh F64, load pl m.kind file = .ok m' ∧
      ∀ a ∈ m.vattrs, VectorAttr a → ∀ o, StartsAt m.vertformat a o → ∀ v x,
        vec3At m.vertices (v * vs + o) = some x → x.Finite → x.real.len ≤ 2 ^ 120 →
        ∃ x' : Vec3 F64, vec3At m'.vertices (v * vs + o) = some x' ∧ x'.Finite ∧
          ∀ i, |x'.real.fn i -
              (rotMat yaw.value pitch.value roll.value).mulVec x.real.fn i| ≤
            (16 * ε + 2 ^ (-23 : ℤ)) * x.real.len + 2 ^ (-149 : ℤ) := by
  obtain ⟨l, h1, hlen, h2⟩ := rotate_near tiled float3 apart small hy hp hr rest
  rw [h1] at saved
  have wf' : MeshWF { m with vertices := l } :=
    ⟨wf.geoms, wf.geom, wf.vattrs, wf.vertformat, by
      rw [show ({ m with vertices := l } : Mesh F64).vertices.length = m.vertices.length from hlen]
      exact wf.vertices, by
      rw [show ({ m with vertices := l } : Mesh F64).vertices.length = m.vertices.length from hlen]
      exact wf.not_one, wf.index, wf.u2⟩
  refine ⟨_, C02_reload_of_export pl { m with vertices := l } file wf' saved, ?_⟩
  intro a ha hav o ho v x hx hf hb
  obtain ⟨x', X, h3, h4, h5, h6⟩ := h2 a ha hav o ho v x hx hf
    (hb.trans (pow_le_pow_right₀ (by norm_num) (by norm_num)))
  have hρ := len_nonneg x.real
  obtain ⟨cx, cy, cz⟩ := comp_le hρ (V := X) (by rw [← len_sq, h5])
  obtain ⟨_, _, _, _, _, _, _, _, hε, _⟩ := hy
  have hε0 : 0 ≤ ε := (abs_nonneg _).trans hε
  have t1 : (2 : ℝ) ^ (-1070 : ℤ) ≤ 2 ^ (-151 : ℤ) :=
    zpow_le_zpow_right₀ (by norm_num) (by norm_num)
  have hr0 : 0 ≤ ε * x.real.len := mul_nonneg hε0 hρ
  have hr1 : ε * x.real.len ≤ 1 * x.real.len := mul_le_mul_of_nonneg_right small hρ
  have big : x.real.len + ((15 * ε + 2 ^ (-47 : ℤ)) * x.real.len + 2 ^ (-1070 : ℤ)) ≤ 2 ^ 127 := by
    generalize (2 : ℝ) ^ (-1070 : ℤ) = t at *
    norm_num at *
    nlinarith
  have fits : (15 * ε + 2 ^ (-47 : ℤ)) * x.real.len + 2 ^ (-1070 : ℤ) +
      (x.real.len + ((15 * ε + 2 ^ (-47 : ℤ)) * x.real.len + 2 ^ (-1070 : ℤ))) * 2 ^ (-24 : ℤ) +
      2 ^ (-150 : ℤ) ≤ (16 * ε + 2 ^ (-23 : ℤ)) * x.real.len + 2 ^ (-149 : ℤ) := by
    generalize (2 : ℝ) ^ (-1070 : ℤ) = t at *
    have q1 : (2 : ℝ) ^ (-149 : ℤ) = 4 * 2 ^ (-151 : ℤ) := by norm_num
    have q2 : (2 : ℝ) ^ (-150 : ℤ) = 2 * 2 ^ (-151 : ℤ) := by norm_num
    have q3 : (0 : ℝ) < 2 ^ (-151 : ℤ) := by positivity
    rw [q1, q2]
    clear q1 q2
    generalize (2 : ℝ) ^ (-151 : ℤ) = w at *
    norm_num
    nlinarith
  refine ⟨x'.map fun y => unpackF (packF y), ?_, ?_⟩
  · show vec3At (l.map _) _ = _
    rw [vec3At_map, h3]
    rfl
  · obtain ⟨f1, e1⟩ := stored_near h6.fin.1 h6.x cx big
    obtain ⟨f2, e2⟩ := stored_near h6.fin.2.1 h6.y cy big
    obtain ⟨f3, e3⟩ := stored_near h6.fin.2.2 h6.z cz big
    refine ⟨⟨f1, f2, f3⟩, fun i => ?_⟩
    rw [← h4]
    fin_cases i
    · exact e1.trans fits
    · exact e2.trans fits
    · exact e3.trans fits

end

theorem quarterTurn_within : @TrigWithin quarterTurn 0 (flt 90) := by
  have hv : (flt 90).value = 90 := by decide +kernel
  have hd : deg ((flt 90).value : ℝ) = π / 2 := by rw [hv]; unfold deg; push_cast; ring
  have h0 : (flt 0).value = 0 := by decide +kernel
  have h1 : (flt 1).value = 1 := by decide +kernel
  refine ⟨flt 0, flt 1, rfl, rfl, by decide +kernel, by decide +kernel, ?_, ?_, ?_, ?_⟩
  · rw [h0]; norm_num
  · rw [h1]; norm_num
  · rw [hd, h0, cos_pi_div_two]; norm_num
  · rw [hd, h1, sin_pi_div_two]; norm_num

theorem rotatable_wf {F : Type} (z : F) (vs : List F) (h : vs.length = 16) :
    MeshWF (rotatable z vs) where
  geoms := rfl
  geom := by
    intro g hg
    simp only [rotatable, meshOf, List.map_cons, List.map_nil, List.mem_singleton] at hg
    subst hg
    refine ⟨rfl, ?_, ?_⟩ <;> intro l hl <;>
      simp only [geomOf, List.mem_singleton] at hl <;> subst hl
    · exact ⟨rfl, rfl, by simp, fun _ => rfl, rfl, fun h => absurd h (show ¬ staticKind.isSkinned = true by decide)⟩
    · refine ⟨rfl, fun m hm => ?_⟩
      simp only [List.map_cons, List.map_nil, List.mem_cons, List.not_mem_nil, or_false] at hm
      rcases hm with rfl | rfl <;> exact ⟨rfl, rfl, rfl, rfl⟩
  vattrs := rfl
  vertformat := show (4 : Int) ≠ 0 by decide
  vertices := by
    show ((vs.length : Nat) : Int) = _
    rw [h]
    exact show ((16 : Nat) : Int) = intDivMul 32 4 2 by decide +kernel
  not_one := by
    show vs.length ≠ 1
    omega
  index := show (0 : Int) ≤ 6 ∧ (6 : Int) ≠ 1 ∧ 6 = (6 : Int).toNat by decide
  u2 := fun h => absurd h (show ¬ staticKind.isSkinned = true by decide)

/-- Coordinates 0, 1/3, 2/3, …, none of which but every third is a binary32 value. -/
def thirds : Mesh F64 :=
  rotatable F64.zero ((List.range 16).map fun n => F64.ofRat false ((n : ℚ) / 3))

/-- Turned by right angles, it can be saved. -/
example : MeshWF thirds ∧ TiledVerts 8 thirds ∧ Float3Vectors 8 thirds ∧
    thirds.vattrs.Pairwise (Apart thirds.vertformat) ∧
    (exportMesh win (@rotate F64 _ quarterTurn thirds [flt 90, flt 90, flt 90]).1).err = none ∧
    ∃ x, vec3At thirds.vertices 8 = some x ∧ x.x.value ≠ 8 / 3 ∧
      |x.x.value - 8 / 3| < 2 ^ (-51 : ℤ) :=
  ⟨rotatable_wf _ _ (by decide), rotatable_tiled _ _ (by decide), rotatable_float3 _ _,
    rotatable_apart _ _, by decide +kernel, ⟨_, rfl, by decide +kernel, by decide +kernel⟩⟩

end Bf2
