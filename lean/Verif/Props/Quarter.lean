import Verif.QuarterLemmas
import Verif.Props.Turn
import Verif.Props.RotError

/-!
# A quarter turn in the saved file (C189)
-/

namespace Bf2

section
variable [Libm F64]

theorem rotate_stored {vs : Nat} {m : Mesh F64} (wf : MeshWF m) (tiled : TiledVerts vs m)
    (float3 : Float3Vectors vs m) (apart : m.vattrs.Pairwise (Apart m.vertformat))
    {y p r : F64} {rest : List F64} {cy sy cp sp cr sr : F64}
    (trig : Trig ⟨Libm.radians y, Libm.radians p, Libm.radians r⟩ cy sy cp sp cr sr) {pl : Plat} {file : Bytes}
    (saved : exportMesh pl (rotate m (y :: p :: r :: rest)).1 = ⟨file, none⟩) :
    ∃ m' : Mesh F64, load pl m.kind file = .ok m' ∧
      ∀ a ∈ m.vattrs, VectorAttr a → ∀ o, StartsAt m.vertformat a o → ∀ v x,
        vec3At m.vertices (v * vs + o) = some x →
        vec3At m'.vertices (v * vs + o) = some ((rotMap cy sy cp sp cr sr x).map fun c => unpackF (packF c)) := by
  obtain ⟨l, h1, hlen, -, h4⟩ := rotate_tiled (rest := rest) tiled float3 trig
  rw [h1] at saved
  have wf' : MeshWF { m with vertices := l } :=
    ⟨wf.geoms, wf.geom, wf.vattrs, wf.vertformat, by
      rw [show ({ m with vertices := l } : Mesh F64).vertices.length = m.vertices.length from hlen]
      exact wf.vertices, by
      rw [show ({ m with vertices := l } : Mesh F64).vertices.length = m.vertices.length from hlen]
      exact wf.not_one, wf.index, wf.u2⟩
  refine ⟨_, C02_reload_of_export pl { m with vertices := l } file wf' saved, ?_⟩
  intro a ha hav o ho v x hx
  show vec3At (l.map _) _ = _
  rw [vec3At_map, h4 apart a ha hav o ho v, hx]
  rfl

end

/-- A number of binary32, not too large. -/
def Fits (x : F64) : Prop := IsSingle x ∧ |x.value| ≤ 2 ^ 126

theorem keptZero_value {x y : F64} (h : KeptZero x y) : y.value = x.value := by
  rcases h with rfl | ⟨rfl, rfl⟩
  · rfl
  · rw [value_zero rfl, value_zero rfl]

theorem keptZero_fits {x y : F64} (h : KeptZero x y) (hx : Fits x) : Fits y := by
  have e := keptZero_value h
  obtain ⟨⟨f, w, hw, v⟩, b⟩ := hx
  exact ⟨⟨keptZero_fin h f, w, hw, e.trans v⟩, by rw [e]; exact b⟩

theorem single_fits {x : Vec3 F64} (h : x.Single) : Fits x.x ∧ Fits x.y ∧ Fits x.z :=
  ⟨h x.x (by simp), h x.y (by simp), h x.z (by simp)⟩

theorem val32_zero : ¬ Special32 0 ∧ (0 : ℚ) = val32 0 := by decide +kernel

/-- A coordinate that is not mixed with another. -/
theorem kept_stored {x y : F64} (hx : Fits x) (h : KeptZero x y) :
    (unpackF (packF y)).isFin = true ∧ (unpackF (packF y)).value = x.value := by
  obtain ⟨⟨f, w, hw, v⟩, b⟩ := hx
  obtain ⟨h1, h2⟩ := stored_lands (want := x.value) (other := 0) (t := 0) (keptZero_fin h f) (by positivity)
    ⟨w, hw, v⟩ ⟨0, val32_zero⟩ b (by rw [abs_zero]; positivity)
    (by rw [keptZero_value h, sub_self, abs_zero]; positivity)
  exact ⟨h1, h2.1 (by rw [abs_zero]; positivity)⟩

/-- A coordinate that is. -/
theorem mixed_stored {u b c s y y' : F64} {σ τ : ℚ} (hσ : σ = 1 ∨ σ = -1) (hτ : τ = 1 ∨ τ = -1) (hu : Fits u)
    (hb : Fits b) (fc : c.isFin = true) (fs : s.isFin = true) (hc : |c.value| ≤ 2 ^ (-50 : ℤ)) (hs : s.value = σ)
    (hy : Rounded ((F64.mul u c).value + τ * (F64.mul b s).value) y) (h : KeptZero y y') :
    y.isFin = true ∧ (unpackF (packF y')).isFin = true ∧
      Lands (τ * σ * b.value) u.value (unpackF (packF y')).value := by
  obtain ⟨hu1, hu2⟩ := hu
  obtain ⟨hb1, hb2⟩ := hb
  obtain ⟨fy, near⟩ := mix_near hσ hτ hu1.1 hb1.1 fc fs hu2 hb2 hc hs hy
  have hw := single_signed hb1 (sign_mul hσ hτ)
  rw [← keptZero_value h] at near
  refine ⟨fy, stored_lands (keptZero_fin h fy) le_rfl hw hu1.2 ?_ hu2 near⟩
  rw [abs_signed (sign_mul hσ hτ)]
  exact hb2

theorem sum_first {u b c s : F64} {σ : ℚ} (hσ : σ = 1 ∨ σ = -1) (hu : Fits u) (hb : Fits b) (fc : c.isFin = true)
    (fs : s.isFin = true) (hc : |c.value| ≤ 2 ^ (-50 : ℤ)) (hs : s.value = σ) :
    Rounded ((F64.mul u c).value + 1 * (F64.mul b s).value) (F64.add (F64.mul u c) (F64.mul b s)) ∧
    Rounded ((F64.mul u c).value + 1 * (F64.mul b s).value) (F64.add (F64.mul b s) (F64.mul u c)) ∧
    Rounded ((F64.mul u c).value + -1 * (F64.mul b s).value) (F64.sub (F64.mul u c) (F64.mul b s)) := by
  have f1 := (mul_small hu.1.1 fc hu.2 hc).1
  have f2 := (mul_unit hσ hb.1.1 fs hs).1
  rw [one_mul, neg_one_mul, ← sub_eq_add_neg]
  refine ⟨add_rounded f1 f2, ?_, sub_rounded f1 f2⟩
  rw [add_comm]
  exact add_rounded f2 f1

section
variable [Libm F64]

/-- **C189.** Yaw by a quarter turn, save, load: the new first coordinate is the third (or its negative), the new
third one the negative of the first (or the first), the second is kept; exactly, unless one of the two
coordinates is a million times smaller than the other. -/
theorem C189_yaw {vs : Nat} {m : Mesh F64} (wf : MeshWF m) (tiled : TiledVerts vs m)
    (float3 : Float3Vectors vs m) (apart : m.vattrs.Pairwise (Apart m.vertformat)) {σ : ℚ}
    {yaw pitch roll : F64} (hy : QuarterTurn σ yaw) (hp : NoTurn pitch) (hr : NoTurn roll) (rest : List F64)
    {pl : Plat} {file : Bytes}
    (saved : exportMesh pl (rotate m (yaw :: pitch :: roll :: rest)).1 = ⟨file, none⟩) :
    ∃ m' : Mesh F64, load pl m.kind file = .ok m' ∧
      ∀ a ∈ m.vattrs, VectorAttr a → ∀ o, StartsAt m.vertformat a o → ∀ v x,
        vec3At m.vertices (v * vs + o) = some x → x.Single →
        ∃ x' : Vec3 F64, vec3At m'.vertices (v * vs + o) = some x' ∧ x'.Finite ∧
          Lands (σ * x.z.value) x.x.value x'.x.value ∧ x'.y.value = x.y.value ∧
          Lands (-σ * x.x.value) x.z.value x'.z.value := by
  obtain ⟨hσ, cy, sy, hcy, hsy, fc, fs, hc, hs⟩ := hy
  obtain ⟨cp, sp, tp, fp, vp, zp⟩ := hp.get
  obtain ⟨cr, sr, tr, fr, vr, zr⟩ := hr.get
  obtain ⟨m', h1, h2⟩ := rotate_stored (y := yaw) (p := pitch) (r := roll) wf tiled float3 apart
    ⟨⟨hcy, hsy⟩, tp, tr⟩ saved
  refine ⟨m', h1, fun a ha hav o ho v x hx single => ⟨_, h2 a ha hav o ho v x hx, ?_⟩⟩
  obtain ⟨hX, hY, hZ⟩ := single_fits single
  have k1 := roll_kept (v := x) ⟨hX.1.1, hY.1.1, hZ.1.1⟩ fr vr zr
  have k2 := pitch_kept (kept3_fin k1 ⟨hX.1.1, hY.1.1, hZ.1.1⟩) fp vp zp
  obtain ⟨kx, ky, kz⟩ := kept3_trans k1 k2
  have e : rotMap cy sy cp sp cr sr x = rotYaw (rotPitch (rotRoll x cr sr) cp sp) cy sy := rfl
  rw [e]
  generalize rotPitch (rotRoll x cr sr) cp sp = q at *
  have qX := keptZero_fits kx hX
  have qZ := keptZero_fits kz hZ
  obtain ⟨-, b1, l1⟩ := mixed_stored hσ (.inl rfl) qX qZ fc fs hc hs (sum_first hσ qX qZ fc fs hc hs).1 (.inl rfl)
  obtain ⟨-, b3, l3⟩ := mixed_stored hσ (.inr rfl) qZ qX fc fs hc hs (sum_first hσ qZ qX fc fs hc hs).2.2 (.inl rfl)
  obtain ⟨b2, l2⟩ := kept_stored hY ky
  rw [keptZero_value kx, keptZero_value kz] at l1 l3
  rw [one_mul] at l1
  rw [neg_one_mul] at l3
  exact ⟨⟨b1, b2, b3⟩, l1, l2, l3⟩

/-- **C189.** The same about the first axis. -/
theorem C189_pitch {vs : Nat} {m : Mesh F64} (wf : MeshWF m) (tiled : TiledVerts vs m)
    (float3 : Float3Vectors vs m) (apart : m.vattrs.Pairwise (Apart m.vertformat)) {σ : ℚ}
    {yaw pitch roll : F64} (hy : NoTurn yaw) (hp : QuarterTurn σ pitch) (hr : NoTurn roll) (rest : List F64)
    {pl : Plat} {file : Bytes}
    (saved : exportMesh pl (rotate m (yaw :: pitch :: roll :: rest)).1 = ⟨file, none⟩) :
    ∃ m' : Mesh F64, load pl m.kind file = .ok m' ∧
      ∀ a ∈ m.vattrs, VectorAttr a → ∀ o, StartsAt m.vertformat a o → ∀ v x,
        vec3At m.vertices (v * vs + o) = some x → x.Single →
        ∃ x' : Vec3 F64, vec3At m'.vertices (v * vs + o) = some x' ∧ x'.Finite ∧
          x'.x.value = x.x.value ∧ Lands (-σ * x.z.value) x.y.value x'.y.value ∧
          Lands (σ * x.y.value) x.z.value x'.z.value := by
  obtain ⟨hσ, cp, sp, hcp, hsp, fc, fs, hc, hs⟩ := hp
  obtain ⟨cy, sy, ty, fy, vy, zy⟩ := hy.get
  obtain ⟨cr, sr, tr, fr, vr, zr⟩ := hr.get
  obtain ⟨m', h1, h2⟩ := rotate_stored (y := yaw) (p := pitch) (r := roll) wf tiled float3 apart
    ⟨ty, ⟨hcp, hsp⟩, tr⟩ saved
  refine ⟨m', h1, fun a ha hav o ho v x hx single => ⟨_, h2 a ha hav o ho v x hx, ?_⟩⟩
  obtain ⟨hX, hY, hZ⟩ := single_fits single
  obtain ⟨kx, ky, kz⟩ := roll_kept (v := x) ⟨hX.1.1, hY.1.1, hZ.1.1⟩ fr vr zr
  have e : rotMap cy sy cp sp cr sr x = rotYaw (rotPitch (rotRoll x cr sr) cp sp) cy sy := rfl
  rw [e]
  generalize rotRoll x cr sr = q at *
  have qX := keptZero_fits kx hX
  have qY := keptZero_fits ky hY
  have qZ := keptZero_fits kz hZ
  have r1 := (sum_first hσ qY qZ fc fs hc hs).2.2
  have r2 := (sum_first hσ qZ qY fc fs hc hs).2.1
  have f1 := (mixed_stored hσ (.inr rfl) qY qZ fc fs hc hs r1 (.inl rfl)).1
  have f2 := (mixed_stored hσ (.inl rfl) qZ qY fc fs hc hs r2 (.inl rfl)).1
  obtain ⟨jx, jy, jz⟩ := yaw_kept (v := rotPitch q cp sp) ⟨qX.1.1, f1, f2⟩ fy vy zy
  obtain ⟨-, b2, l2⟩ := mixed_stored hσ (.inr rfl) qY qZ fc fs hc hs r1 jy
  obtain ⟨-, b3, l3⟩ := mixed_stored hσ (.inl rfl) qZ qY fc fs hc hs r2 jz
  obtain ⟨b1, l1⟩ := kept_stored hX (keptZero_trans kx jx)
  rw [keptZero_value ky, keptZero_value kz] at l2 l3
  rw [neg_one_mul] at l2
  rw [one_mul] at l3
  exact ⟨⟨b1, b2, b3⟩, l1, l2, l3⟩

/-- **C189.** The same about the third axis. -/
theorem C189_roll {vs : Nat} {m : Mesh F64} (wf : MeshWF m) (tiled : TiledVerts vs m)
    (float3 : Float3Vectors vs m) (apart : m.vattrs.Pairwise (Apart m.vertformat)) {σ : ℚ}
    {yaw pitch roll : F64} (hy : NoTurn yaw) (hp : NoTurn pitch) (hr : QuarterTurn σ roll) (rest : List F64)
    {pl : Plat} {file : Bytes}
    (saved : exportMesh pl (rotate m (yaw :: pitch :: roll :: rest)).1 = ⟨file, none⟩) :
    ∃ m' : Mesh F64, load pl m.kind file = .ok m' ∧
      ∀ a ∈ m.vattrs, VectorAttr a → ∀ o, StartsAt m.vertformat a o → ∀ v x,
        vec3At m.vertices (v * vs + o) = some x → x.Single →
        ∃ x' : Vec3 F64, vec3At m'.vertices (v * vs + o) = some x' ∧ x'.Finite ∧
          Lands (-σ * x.y.value) x.x.value x'.x.value ∧ Lands (σ * x.x.value) x.y.value x'.y.value ∧
          x'.z.value = x.z.value := by
  obtain ⟨hσ, cr, sr, hcr, hsr, fc, fs, hc, hs⟩ := hr
  obtain ⟨cy, sy, ty, fy, vy, zy⟩ := hy.get
  obtain ⟨cp, sp, tp, fp, vp, zp⟩ := hp.get
  obtain ⟨m', h1, h2⟩ := rotate_stored (y := yaw) (p := pitch) (r := roll) wf tiled float3 apart
    ⟨ty, tp, ⟨hcr, hsr⟩⟩ saved
  refine ⟨m', h1, fun a ha hav o ho v x hx single => ⟨_, h2 a ha hav o ho v x hx, ?_⟩⟩
  obtain ⟨qX, qY, qZ⟩ := single_fits single
  have e : rotMap cy sy cp sp cr sr x = rotYaw (rotPitch (rotRoll x cr sr) cp sp) cy sy := rfl
  rw [e]
  have r1 : Rounded _ (rotRoll x cr sr).x := (sum_first hσ qX qY fc fs hc hs).2.2
  have r2 : Rounded _ (rotRoll x cr sr).y := (sum_first hσ qY qX fc fs hc hs).2.1
  have kz : KeptZero x.z (rotRoll x cr sr).z := .inl rfl
  generalize rotRoll x cr sr = q at *
  have f1 := (mixed_stored hσ (.inr rfl) qX qY fc fs hc hs r1 (.inl rfl)).1
  have f2 := (mixed_stored hσ (.inl rfl) qY qX fc fs hc hs r2 (.inl rfl)).1
  have f3 := keptZero_fin kz qZ.1.1
  have k1 := pitch_kept (v := q) ⟨f1, f2, f3⟩ fp vp zp
  have k2 := yaw_kept (kept3_fin k1 ⟨f1, f2, f3⟩) fy vy zy
  obtain ⟨jx, jy, jz⟩ := kept3_trans k1 k2
  clear k1 k2 e
  generalize rotYaw (rotPitch q cp sp) cy sy = p at *
  obtain ⟨-, b1, l1⟩ := mixed_stored hσ (.inr rfl) qX qY fc fs hc hs r1 jx
  obtain ⟨-, b2, l2⟩ := mixed_stored hσ (.inl rfl) qY qX fc fs hc hs r2 jy
  obtain ⟨b3, l3⟩ := kept_stored qZ (keptZero_trans kz jz)
  rw [neg_one_mul] at l1
  rw [one_mul] at l2
  exact ⟨⟨b1, b2, b3⟩, l1, l2, l3⟩

end

/-- As an IEEE C library has it: the sine of 90 degrees is one, the cosine the double `6.123233995736766e-17`. -/
@[reducible] def roundedQuarter : Libm F64 :=
  ⟨id, fun a => some (if a = flt 90 then flt 1 else plusZero),
    fun a => some (if a = flt 90 then F64.ofRat false (4967757600021511 / 2 ^ 106) else flt 1)⟩

theorem roundedQuarter_turn : @QuarterTurn roundedQuarter 1 (flt 90) ∧ @NoTurn roundedQuarter (flt 0) := by
  refine ⟨⟨.inl rfl, F64.ofRat false (4967757600021511 / 2 ^ 106), flt 1, by decide +kernel, by decide +kernel,
    by decide +kernel, by decide +kernel, by decide +kernel, by decide +kernel⟩,
    ⟨flt 1, by decide +kernel, by decide +kernel, by decide +kernel⟩, by decide +kernel⟩

theorem flt_fits {x : F64} (h : unpackF (packF x) = x ∧ x.isFin = true ∧ |x.value| ≤ 2 ^ 126) : Fits x :=
  ⟨by
    obtain ⟨h1, -⟩ := pack_error h.2.1 (h.2.2.trans (pow_le_pow_right₀ (by norm_num) (by norm_num)))
    exact ⟨h.2.1, _, h1, (congrArg F64.value h.1).symm.trans (C51_read_exact _ h1).2⟩, h.2.2⟩

/-- Two vertices, at `(0, 1, 2)` and `(8, 9, 10)`. -/
def counted : Mesh F64 := rotatable (flt 0) ((List.range 16).map flt)

theorem counted_single : Vec3.Single ⟨flt 0, flt 1, flt 2⟩ ∧ Vec3.Single ⟨flt 8, flt 9, flt 10⟩ := by
  have h : ∀ c ∈ [flt 0, flt 1, flt 2, flt 8, flt 9, flt 10],
      unpackF (packF c) = c ∧ c.isFin = true ∧ |c.value| ≤ 2 ^ 126 := by decide +kernel
  exact ⟨fun c hc => flt_fits (h c (by simp only [List.mem_cons] at hc ⊢; tauto)),
    fun c hc => flt_fits (h c (by simp only [List.mem_cons] at hc ⊢; tauto))⟩

theorem counted_saved : exportMesh win (@rotate F64 _ roundedQuarter counted [flt 90, flt 0, flt 0]).1 =
    ⟨(exportMesh win (@rotate F64 _ roundedQuarter counted [flt 90, flt 0, flt 0]).1).bytes, none⟩ := by
  have h : (exportMesh win (@rotate F64 _ roundedQuarter counted [flt 90, flt 0, flt 0]).1).err = none := by
    decide +kernel
  rw [← h]

/-- `(8, 9, 10)` turned and saved is read back as exactly `(10, 9, -8)`. -/
example : ∃ m' : Mesh F64, load win counted.kind
      (exportMesh win (@rotate F64 _ roundedQuarter counted [flt 90, flt 0, flt 0]).1).bytes = .ok m' ∧
    ∃ x', vec3At m'.vertices 8 = some x' ∧ x'.x.value = 10 ∧ x'.y.value = 9 ∧ x'.z.value = -8 := by
  let _ : Libm F64 := roundedQuarter
  obtain ⟨hy, hn⟩ := roundedQuarter_turn
  obtain ⟨m', h1, h2⟩ := C189_yaw (rotatable_wf _ _ (by decide)) (rotatable_tiled _ _ (by decide))
    (rotatable_float3 _ _) (rotatable_apart _ _) hy hn hn [] counted_saved
  obtain ⟨x', h3, -, h4, h5, h6⟩ := h2 ⟨0, 0, 2, 0⟩ (by decide +kernel) (by decide) 0
    (show StartsAt 4 _ _ by decide) 1 ⟨flt 8, flt 9, flt 10⟩ rfl counted_single.2
  have e8 : (flt 8).value = 8 := by decide +kernel
  have e9 : (flt 9).value = 9 := by decide +kernel
  have e10 : (flt 10).value = 10 := by decide +kernel
  simp only [e8, e9, e10] at h4 h5 h6
  refine ⟨m', h1, x', h3, ?_, h5, ?_⟩
  · rw [h4.1 (by norm_num), one_mul]
  · rw [h6.1 (by norm_num), neg_one_mul]

/-- The hypotheses of `C189_pitch` and `C189_roll` are met too. -/
example : @QuarterTurn roundedQuarter 1 (flt 90) ∧ @NoTurn roundedQuarter (flt 0) ∧ MeshWF counted ∧
    TiledVerts 8 counted ∧ Float3Vectors 8 counted ∧ counted.vattrs.Pairwise (Apart counted.vertformat) ∧
    (exportMesh win (@rotate F64 _ roundedQuarter counted [flt 0, flt 90, flt 0]).1).err = none ∧
    (exportMesh win (@rotate F64 _ roundedQuarter counted [flt 0, flt 0, flt 90]).1).err = none ∧
    vec3At counted.vertices (1 * 8 + 0) = some ⟨flt 8, flt 9, flt 10⟩ ∧ Vec3.Single ⟨flt 8, flt 9, flt 10⟩ :=
  ⟨roundedQuarter_turn.1, roundedQuarter_turn.2, rotatable_wf _ _ (by decide), rotatable_tiled _ _ (by decide),
    rotatable_float3 _ _, rotatable_apart _ _, by decide +kernel, by decide +kernel, rfl, counted_single.2⟩

/-- **C189.** A coordinate that ought to become zero need not: there is a mesh with a vertex at `(0, 1, 2)`
that a quarter turn, saved and loaded again, puts at `(2, 1, z)` with `z` not zero, for a cosine as an IEEE
library has it. -/
theorem C189_zero_spoiled : ∃ (_ : Libm F64) (m m' : Mesh F64) (file : Bytes) (x x' : Vec3 F64),
    QuarterTurn 1 (flt 90) ∧ NoTurn (flt 0) ∧ MeshWF m ∧ TiledVerts 8 m ∧ Float3Vectors 8 m ∧
    m.vattrs.Pairwise (Apart m.vertformat) ∧ exportMesh win (rotate m [flt 90, flt 0, flt 0]).1 = ⟨file, none⟩ ∧
    load win m.kind file = .ok m' ∧ vec3At m.vertices 0 = some x ∧ vec3At m'.vertices 0 = some x' ∧ x.Single ∧
    x.x.value = 0 ∧ x'.x.value = x.z.value ∧ x'.y.value = x.y.value ∧ x'.z.value ≠ 0 := by
  refine ⟨roundedQuarter, ?_⟩
  let _ : Libm F64 := roundedQuarter
  obtain ⟨hy, hn⟩ := roundedQuarter_turn
  obtain ⟨m', h1, h2⟩ := rotate_stored (m := counted) (y := flt 90) (p := flt 0) (r := flt 0)
    (cy := F64.ofRat false (4967757600021511 / 2 ^ 106)) (sy := flt 1) (cp := flt 1) (sp := plusZero)
    (cr := flt 1) (sr := plusZero)
    (rotatable_wf _ _ (by decide)) (rotatable_tiled _ _ (by decide)) (rotatable_float3 _ _) (rotatable_apart _ _)
    ⟨by decide +kernel, by decide +kernel, by decide +kernel⟩ counted_saved
  have h3 := h2 ⟨0, 0, 2, 0⟩ (by decide +kernel) (by decide) 0
    (show StartsAt 4 _ _ by decide) 0 ⟨flt 0, flt 1, flt 2⟩ rfl
  refine ⟨counted, m', _, ⟨flt 0, flt 1, flt 2⟩, _, hy, hn, rotatable_wf _ _ (by decide),
    rotatable_tiled _ _ (by decide), rotatable_float3 _ _, rotatable_apart _ _, counted_saved, h1, rfl, h3,
    counted_single.1, by decide +kernel, by decide +kernel, by decide +kernel, by decide +kernel⟩

end Bf2
