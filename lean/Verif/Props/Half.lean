import Verif.HalfSpec
import Verif.Props.Spin

/-!
# A half turn in the saved file (C191)
-/

namespace Bf2

/-- A coordinate that is negated, after a trace of another was added to it. -/
theorem half_stored {u b c s y y' : F64} (hu : Fits u) (hb : Fits b) (fc : c.isFin = true) (fs : s.isFin = true)
    (hc : c.value = -1) (hs : |s.value| ≤ 2 ^ (-50 : ℤ)) {p : ℚ} (hp : |p| = |(F64.mul u s).value|)
    (hy : Rounded (p + 1 * (F64.mul b c).value) y) (h : KeptZero y y') :
    y.isFin = true ∧ (unpackF (packF y')).isFin = true ∧ Lands (-b.value) u.value (unpackF (packF y')).value := by
  obtain ⟨hu1, hu2⟩ := hu
  obtain ⟨hb1, hb2⟩ := hb
  obtain ⟨fy, near⟩ := mix_near_of (.inr rfl) (.inl rfl) hu1.1 hb1.1 fs fc hu2 hb2 hs hc hp hy
  have hw := single_signed hb1 (.inr rfl)
  rw [← keptZero_value h, one_mul, neg_one_mul] at near
  rw [neg_one_mul] at hw
  exact ⟨fy, stored_lands (keptZero_fin h fy) le_rfl hw hu1.2 (by rw [abs_neg]; exact hb2) hu2 near⟩

theorem half_sums {u b c s : F64} (hu : Fits u) (hb : Fits b) (fc : c.isFin = true) (fs : s.isFin = true)
    (hc : c.value = -1) (hs : |s.value| ≤ 2 ^ (-50 : ℤ)) :
    Rounded ((F64.mul u s).value + 1 * (F64.mul b c).value) (F64.add (F64.mul b c) (F64.mul u s)) ∧
    Rounded ((F64.mul u s).value + 1 * (F64.mul b c).value) (F64.add (F64.mul u s) (F64.mul b c)) ∧
    Rounded (-(F64.mul u s).value + 1 * (F64.mul b c).value) (F64.sub (F64.mul b c) (F64.mul u s)) := by
  have f1 := (mul_small hu.1.1 fs hu.2 hs).1
  have f2 := (mul_unit (.inr rfl) hb.1.1 fc hc).1
  rw [one_mul]
  refine ⟨?_, add_rounded f1 f2, ?_⟩
  · rw [add_comm]
    exact add_rounded f2 f1
  · rw [add_comm, ← sub_eq_add_neg]
    exact sub_rounded f2 f1

section
variable [Libm F64]

/-- **C191.** Yaw by half a turn, save, load: the first and the third coordinate are negated, the second is kept;
exactly, unless one of the two is a million times smaller than the other. -/
theorem C191_yaw {vs : Nat} {m : Mesh F64} (wf : MeshWF m) (tiled : TiledVerts vs m)
    (float3 : Float3Vectors vs m) (apart : m.vattrs.Pairwise (Apart m.vertformat))
    {yaw pitch roll : F64} (hy : HalfTurn yaw) (hp : NoTurn pitch) (hr : NoTurn roll) (rest : List F64)
    {pl : Plat} {file : Bytes}
    (saved : exportMesh pl (rotate m (yaw :: pitch :: roll :: rest)).1 = ⟨file, none⟩) :
    ∃ m' : Mesh F64, load pl m.kind file = .ok m' ∧
      ∀ a ∈ m.vattrs, VectorAttr a → ∀ o, StartsAt m.vertformat a o → ∀ v x,
        vec3At m.vertices (v * vs + o) = some x → x.Single →
        ∃ x' : Vec3 F64, vec3At m'.vertices (v * vs + o) = some x' ∧ x'.Finite ∧
          Lands (-x.x.value) x.z.value x'.x.value ∧ x'.y.value = x.y.value ∧
          Lands (-x.z.value) x.x.value x'.z.value := by
  obtain ⟨cy, sy, hcy, hsy, fc, fs, hc, hs⟩ := hy
  obtain ⟨cp, sp, tp, fp, vp, zp⟩ := hp.get
  obtain ⟨cr, sr, tr, fr, vr, zr⟩ := hr.get
  obtain ⟨m', h1, h2⟩ := rotate_stored (y := yaw) (p := pitch) (r := roll) wf tiled float3 apart
    ⟨⟨hcy, hsy⟩, tp, tr⟩ saved
  refine ⟨m', h1, fun a ha hav o ho v x hx single => ⟨_, h2 a ha hav o ho v x hx, ?_⟩⟩
  obtain ⟨hX, hY, hZ⟩ := single_fits single
  have k1 := roll_kept (v := x) ⟨hX.1.1, hY.1.1, hZ.1.1⟩ fr vr zr
  have k2 := pitch_kept (kept3_fin k1 ⟨hX.1.1, hY.1.1, hZ.1.1⟩) fp vp zp
  obtain ⟨kx, ky, kz⟩ := kept3_trans k1 k2
  have e : rotMap cy sy cp sp cr sr x = rotYaw (rotPitch (rotRoll x cr sr) cp sp) cy sy := rfl
  rw [e]
  generalize rotPitch (rotRoll x cr sr) cp sp = q at *
  have qX := keptZero_fits kx hX
  have qZ := keptZero_fits kz hZ
  obtain ⟨-, b1, l1⟩ := half_stored qZ qX fc fs hc hs rfl (half_sums qZ qX fc fs hc hs).1 (.inl rfl)
  obtain ⟨-, b3, l3⟩ := half_stored qX qZ fc fs hc hs (abs_neg _) (half_sums qX qZ fc fs hc hs).2.2 (.inl rfl)
  obtain ⟨b2, l2⟩ := kept_stored hY ky
  rw [keptZero_value kx, keptZero_value kz] at l1 l3
  exact ⟨⟨b1, b2, b3⟩, l1, l2, l3⟩

/-- **C191.** The same about the first axis. -/
theorem C191_pitch {vs : Nat} {m : Mesh F64} (wf : MeshWF m) (tiled : TiledVerts vs m)
    (float3 : Float3Vectors vs m) (apart : m.vattrs.Pairwise (Apart m.vertformat))
    {yaw pitch roll : F64} (hy : NoTurn yaw) (hp : HalfTurn pitch) (hr : NoTurn roll) (rest : List F64)
    {pl : Plat} {file : Bytes}
    (saved : exportMesh pl (rotate m (yaw :: pitch :: roll :: rest)).1 = ⟨file, none⟩) :
    ∃ m' : Mesh F64, load pl m.kind file = .ok m' ∧
      ∀ a ∈ m.vattrs, VectorAttr a → ∀ o, StartsAt m.vertformat a o → ∀ v x,
        vec3At m.vertices (v * vs + o) = some x → x.Single →
        ∃ x' : Vec3 F64, vec3At m'.vertices (v * vs + o) = some x' ∧ x'.Finite ∧
          x'.x.value = x.x.value ∧ Lands (-x.y.value) x.z.value x'.y.value ∧
          Lands (-x.z.value) x.y.value x'.z.value := by
  obtain ⟨cp, sp, hcp, hsp, fc, fs, hc, hs⟩ := hp
  obtain ⟨cy, sy, ty, fy, vy, zy⟩ := hy.get
  obtain ⟨cr, sr, tr, fr, vr, zr⟩ := hr.get
  obtain ⟨m', h1, h2⟩ := rotate_stored (y := yaw) (p := pitch) (r := roll) wf tiled float3 apart
    ⟨ty, ⟨hcp, hsp⟩, tr⟩ saved
  refine ⟨m', h1, fun a ha hav o ho v x hx single => ⟨_, h2 a ha hav o ho v x hx, ?_⟩⟩
  obtain ⟨hX, hY, hZ⟩ := single_fits single
  obtain ⟨kx, ky, kz⟩ := roll_kept (v := x) ⟨hX.1.1, hY.1.1, hZ.1.1⟩ fr vr zr
  have e : rotMap cy sy cp sp cr sr x = rotYaw (rotPitch (rotRoll x cr sr) cp sp) cy sy := rfl
  rw [e]
  generalize rotRoll x cr sr = q at *
  have qX := keptZero_fits kx hX
  have qY := keptZero_fits ky hY
  have qZ := keptZero_fits kz hZ
  have r1 := (half_sums qZ qY fc fs hc hs).2.2
  have r2 := (half_sums qY qZ fc fs hc hs).2.1
  have f1 := (half_stored qZ qY fc fs hc hs (abs_neg _) r1 (.inl rfl)).1
  have f2 := (half_stored qY qZ fc fs hc hs rfl r2 (.inl rfl)).1
  obtain ⟨jx, jy, jz⟩ := yaw_kept (v := rotPitch q cp sp) ⟨qX.1.1, f1, f2⟩ fy vy zy
  obtain ⟨-, b2, l2⟩ := half_stored qZ qY fc fs hc hs (abs_neg _) r1 jy
  obtain ⟨-, b3, l3⟩ := half_stored qY qZ fc fs hc hs rfl r2 jz
  obtain ⟨b1, l1⟩ := kept_stored hX (keptZero_trans kx jx)
  rw [keptZero_value ky, keptZero_value kz] at l2 l3
  exact ⟨⟨b1, b2, b3⟩, l1, l2, l3⟩

/-- **C191.** The same about the third axis. -/
theorem C191_roll {vs : Nat} {m : Mesh F64} (wf : MeshWF m) (tiled : TiledVerts vs m)
    (float3 : Float3Vectors vs m) (apart : m.vattrs.Pairwise (Apart m.vertformat))
    {yaw pitch roll : F64} (hy : NoTurn yaw) (hp : NoTurn pitch) (hr : HalfTurn roll) (rest : List F64)
    {pl : Plat} {file : Bytes}
    (saved : exportMesh pl (rotate m (yaw :: pitch :: roll :: rest)).1 = ⟨file, none⟩) :
    ∃ m' : Mesh F64, load pl m.kind file = .ok m' ∧
      ∀ a ∈ m.vattrs, VectorAttr a → ∀ o, StartsAt m.vertformat a o → ∀ v x,
        vec3At m.vertices (v * vs + o) = some x → x.Single →
        ∃ x' : Vec3 F64, vec3At m'.vertices (v * vs + o) = some x' ∧ x'.Finite ∧
          Lands (-x.x.value) x.y.value x'.x.value ∧ Lands (-x.y.value) x.x.value x'.y.value ∧
          x'.z.value = x.z.value := by
  obtain ⟨cr, sr, hcr, hsr, fc, fs, hc, hs⟩ := hr
  obtain ⟨cy, sy, ty, fy, vy, zy⟩ := hy.get
  obtain ⟨cp, sp, tp, fp, vp, zp⟩ := hp.get
  obtain ⟨m', h1, h2⟩ := rotate_stored (y := yaw) (p := pitch) (r := roll) wf tiled float3 apart
    ⟨ty, tp, ⟨hcr, hsr⟩⟩ saved
  refine ⟨m', h1, fun a ha hav o ho v x hx single => ⟨_, h2 a ha hav o ho v x hx, ?_⟩⟩
  obtain ⟨qX, qY, qZ⟩ := single_fits single
  have e : rotMap cy sy cp sp cr sr x = rotYaw (rotPitch (rotRoll x cr sr) cp sp) cy sy := rfl
  rw [e]
  have r1 : Rounded _ (rotRoll x cr sr).x := (half_sums qY qX fc fs hc hs).2.2
  have r2 : Rounded _ (rotRoll x cr sr).y := (half_sums qX qY fc fs hc hs).2.1
  have kz : KeptZero x.z (rotRoll x cr sr).z := .inl rfl
  generalize rotRoll x cr sr = q at *
  have f1 := (half_stored qY qX fc fs hc hs (abs_neg _) r1 (.inl rfl)).1
  have f2 := (half_stored qX qY fc fs hc hs rfl r2 (.inl rfl)).1
  have f3 := keptZero_fin kz qZ.1.1
  have k1 := pitch_kept (v := q) ⟨f1, f2, f3⟩ fp vp zp
  have k2 := yaw_kept (kept3_fin k1 ⟨f1, f2, f3⟩) fy vy zy
  obtain ⟨jx, jy, jz⟩ := kept3_trans k1 k2
  clear k1 k2 e
  generalize rotYaw (rotPitch q cp sp) cy sy = p at *
  obtain ⟨-, b1, l1⟩ := half_stored qY qX fc fs hc hs (abs_neg _) r1 jx
  obtain ⟨-, b2, l2⟩ := half_stored qX qY fc fs hc hs rfl r2 jy
  obtain ⟨b3, l3⟩ := kept_stored qZ (keptZero_trans kz jz)
  exact ⟨⟨b1, b2, b3⟩, l1, l2, l3⟩

theorem half_step {vs : Nat} {m m1 m2 : Mesh F64} (ord : Orderly vs m)
    (apart : m.vattrs.Pairwise (Apart m.vertformat)) {axis : Axis} {yaw pitch roll : F64}
    (half : axis.Half yaw pitch roll) (hd : Does m (.turn yaw pitch roll) m1) (hs : Does m1 .store m2) {a : VAttr}
    (ha : a ∈ m.vattrs) (hv : VectorAttr a) {o : Nat} (ho : StartsAt m.vertformat a o) {v : Nat} {x : Vec3 F64}
    (hx : vec3At m.vertices (v * vs + o) = some x) (single : x.Single) (level : Level x.values) :
    ∃ x' : Vec3 F64, vec3At m2.vertices (v * vs + o) = some x' ∧ x'.Single ∧ x'.values = halfSpin axis x.values := by
  obtain ⟨-, same⟩ := step_kept ord hd.step
  obtain ⟨fX, fY, fZ⟩ := single_fits single
  have lv : ∀ c ∈ [x.x.value, x.y.value, x.z.value], ∀ d ∈ [x.x.value, x.y.value, x.z.value],
      |c| ≤ 2 ^ 20 * |d| := level
  simp only [List.mem_cons, List.not_mem_nil, or_false, forall_eq_or_imp, forall_eq] at lv
  obtain ⟨⟨-, xy, xz⟩, ⟨yx, -, yz⟩, zx, zy, -⟩ := lv
  have neg : ∀ {b c : F64}, Fits b → c.isFin = true → c.value = -b.value → Fits c := fun hb hc h =>
    fits_signed hb hc (.inr rfl) (by rw [h, neg_one_mul])
  have pos : ∀ {b c : F64}, Fits b → c.isFin = true → c.value = b.value → Fits c := fun hb hc h =>
    fits_signed hb hc (.inl rfl) (by rw [h, one_mul])
  cases hd with | turn hr => ?_
  cases hs with | @store _ pl file he hl => ?_
  have saved : exportMesh pl (rotate m [yaw, pitch, roll]).1 = ⟨file, none⟩ := by rw [hr]; exact he
  rw [same.kind] at hl
  cases axis with
  | yaw =>
    obtain ⟨m', h1, h2⟩ := C191_yaw ord.wf ord.verts ord.vectors apart half.1 half.2.1 half.2.2 [] saved
    obtain rfl := Except.ok.inj (h1.symm.trans hl)
    obtain ⟨x', h3, ⟨g1, g2, g3⟩, l1, e2, l3⟩ := h2 a ha hv o ho v x hx single
    have e1 := l1.1 (by rw [abs_neg]; exact zx)
    have e3 := l3.1 (by rw [abs_neg]; exact xz)
    refine ⟨x', h3, single_of (neg fX g1 e1) (pos fY g2 e2) (neg fZ g3 e3), ?_⟩
    show Vec3.mk _ _ _ = _
    rw [e1, e2, e3]
    rfl
  | pitch =>
    obtain ⟨m', h1, h2⟩ := C191_pitch ord.wf ord.verts ord.vectors apart half.1 half.2.1 half.2.2 [] saved
    obtain rfl := Except.ok.inj (h1.symm.trans hl)
    obtain ⟨x', h3, ⟨g1, g2, g3⟩, e1, l2, l3⟩ := h2 a ha hv o ho v x hx single
    have e2 := l2.1 (by rw [abs_neg]; exact zy)
    have e3 := l3.1 (by rw [abs_neg]; exact yz)
    refine ⟨x', h3, single_of (pos fX g1 e1) (neg fY g2 e2) (neg fZ g3 e3), ?_⟩
    show Vec3.mk _ _ _ = _
    rw [e1, e2, e3]
    rfl
  | roll =>
    obtain ⟨m', h1, h2⟩ := C191_roll ord.wf ord.verts ord.vectors apart half.1 half.2.1 half.2.2 [] saved
    obtain rfl := Except.ok.inj (h1.symm.trans hl)
    obtain ⟨x', h3, ⟨g1, g2, g3⟩, l1, l2, e3⟩ := h2 a ha hv o ho v x hx single
    have e1 := l1.1 (by rw [abs_neg]; exact yx)
    have e2 := l2.1 (by rw [abs_neg]; exact xy)
    refine ⟨x', h3, single_of (neg fX g1 e1) (neg fY g2 e2) (pos fZ g3 e3), ?_⟩
    show Vec3.mk _ _ _ = _
    rw [e1, e2, e3]
    rfl

/-- **C191.** Two half turns about one axis, each saved, bring every level vector back. -/
theorem C191_twice {vs : Nat} {m m' : Mesh F64} (ord : Orderly vs m)
    (apart : m.vattrs.Pairwise (Apart m.vertformat)) {axis : Axis} {yaw pitch roll : F64}
    (half : axis.Half yaw pitch roll)
    (runs : Runs m [.turn yaw pitch roll, .store, .turn yaw pitch roll, .store] m') :
    ∀ a ∈ m.vattrs, VectorAttr a → ∀ o, StartsAt m.vertformat a o → ∀ v x,
      vec3At m.vertices (v * vs + o) = some x → x.Single → Level x.values →
      ∃ x' : Vec3 F64, vec3At m'.vertices (v * vs + o) = some x' ∧ x'.values = x.values := by
  intro a ha hv o ho v x hx single level
  cases runs with | cons h1 runs => ?_
  cases runs with | cons h2 runs => ?_
  cases runs with | cons h3 runs => ?_
  cases runs with | cons h4 runs => ?_
  cases runs with | nil => ?_
  obtain ⟨x1, hx1, s1, e1⟩ := half_step ord apart half h1 h2 ha hv ho hx single level
  obtain ⟨ord1, same1⟩ := step_kept ord h1.step
  obtain ⟨ord2, same2⟩ := step_kept ord1 h2.step
  have ev := same2.vattrs.trans same1.vattrs
  have ef := same2.vertformat.trans same1.vertformat
  have l1 : Level x1.values := by
    rw [e1]
    have := level_spin (level_spin level (.inl rfl) axis) (.inl rfl) axis
    cases axis <;> simpa [spin, halfSpin] using this
  obtain ⟨x', hx', -, e⟩ := half_step ord2 (by rw [ev, ef]; exact apart) half h3 h4 (by rw [ev]; exact ha) hv
    (by rw [ef]; exact ho) hx1 s1 l1
  refine ⟨x', hx', ?_⟩
  rw [e, e1]
  generalize x.values = w
  obtain ⟨p, q, r⟩ := w
  cases axis <;> simp [halfSpin]

/-- **C191.** Half a turn, saved, puts every level vector exactly where two quarter turns about the same axis,
each saved, put it. -/
theorem C191_two_quarters {vs : Nat} {m m1 m2 : Mesh F64} (ord : Orderly vs m)
    (apart : m.vattrs.Pairwise (Apart m.vertformat)) {t : Spin} (fine : t.Fine)
    (quarters : Runs m ([t, t].flatMap Spin.acts) m1) {yaw pitch roll : F64} (half : t.axis.Half yaw pitch roll)
    (once : Runs m [.turn yaw pitch roll, .store] m2) :
    ∀ a ∈ m.vattrs, VectorAttr a → ∀ o, StartsAt m.vertformat a o → ∀ v x,
      vec3At m.vertices (v * vs + o) = some x → x.Single → Level x.values →
      ∃ x1 x2 : Vec3 F64, vec3At m1.vertices (v * vs + o) = some x1 ∧ vec3At m2.vertices (v * vs + o) = some x2 ∧
        x1.values = x2.values ∧ x2.values = halfSpin t.axis x.values := by
  intro a ha hv o ho v x hx single level
  obtain ⟨x1, h1, e1⟩ := C190_spun ord apart (ts := [t, t])
    (fun u hu => by simp only [List.mem_cons, List.not_mem_nil, or_false, or_self] at hu; rw [hu]; exact fine)
    quarters a ha hv o ho v x hx single level
  cases once with | cons g1 once => ?_
  cases once with | cons g2 once => ?_
  cases once with | nil => ?_
  obtain ⟨x2, h2, -, e2⟩ := half_step ord apart half g1 g2 ha hv ho hx single level
  refine ⟨x1, x2, h1, h2, ?_, e2⟩
  rw [e1, e2]
  have hσ := fine.sign
  generalize x.values = w
  obtain ⟨p, q, r⟩ := w
  obtain ⟨axis, σ, _, _, _⟩ := t
  rcases hσ with h | h <;> simp only at h <;> subst h <;> cases axis <;> simp [spinAll, spin, halfSpin]

end

/-! ## A sample -/

/-- As an IEEE C library has it: the cosine of 180 degrees is minus one, the sine the double
`1.2246467991473532e-16`. -/
@[reducible] def roundedHalf : Libm F64 :=
  ⟨id, fun a => some (if a = flt 180 then F64.ofRat false (4967757600021511 / 2 ^ 105) else plusZero),
    fun a => some (if a = flt 180 then F64.ofRat true (-1) else flt 1)⟩

theorem roundedHalf_turn : @HalfTurn roundedHalf (flt 180) ∧ @NoTurn roundedHalf (flt 0) := by
  refine ⟨⟨F64.ofRat true (-1), F64.ofRat false (4967757600021511 / 2 ^ 105), by decide +kernel, by decide +kernel,
    by decide +kernel, by decide +kernel, by decide +kernel, by decide +kernel⟩,
    ⟨flt 1, by decide +kernel, by decide +kernel, by decide +kernel⟩, by decide +kernel⟩

theorem half_saved {a b c : F64} (h : (exportMesh win (@rotate F64 _ roundedHalf counted [a, b, c]).1).err = none) :
    exportMesh win (@rotate F64 _ roundedHalf counted [a, b, c]).1 =
      ⟨(exportMesh win (@rotate F64 _ roundedHalf counted [a, b, c]).1).bytes, none⟩ := by
  rw [← h]

theorem counted_values : (flt 8).value = 8 ∧ (flt 9).value = 9 ∧ (flt 10).value = 10 := by decide +kernel

/-- `(8, 9, 10)` turned by half a turn of yaw and saved is read back as exactly `(-8, 9, -10)`. -/
example : ∃ m' : Mesh F64, load win counted.kind
      (exportMesh win (@rotate F64 _ roundedHalf counted [flt 180, flt 0, flt 0]).1).bytes = .ok m' ∧
    ∃ x', vec3At m'.vertices 8 = some x' ∧ x'.x.value = -8 ∧ x'.y.value = 9 ∧ x'.z.value = -10 := by
  let _ : Libm F64 := roundedHalf
  obtain ⟨hy, hn⟩ := roundedHalf_turn
  obtain ⟨m', h1, h2⟩ := C191_yaw (rotatable_wf _ _ (by decide)) (rotatable_tiled _ _ (by decide))
    (rotatable_float3 _ _) (rotatable_apart _ _) hy hn hn [] (half_saved (by decide +kernel))
  obtain ⟨x', h3, -, h4, h5, h6⟩ := h2 ⟨0, 0, 2, 0⟩ (by decide +kernel) (by decide) 0
    (show StartsAt 4 _ _ by decide) 1 ⟨flt 8, flt 9, flt 10⟩ rfl counted_single.2
  obtain ⟨e8, e9, e10⟩ := counted_values
  simp only [e8, e9, e10] at h4 h5 h6
  exact ⟨m', h1, x', h3, h4.1 (by norm_num), h5, h6.1 (by norm_num)⟩

/-- By half a turn of pitch as `(8, -9, -10)`. -/
example : ∃ m' : Mesh F64, load win counted.kind
      (exportMesh win (@rotate F64 _ roundedHalf counted [flt 0, flt 180, flt 0]).1).bytes = .ok m' ∧
    ∃ x', vec3At m'.vertices 8 = some x' ∧ x'.x.value = 8 ∧ x'.y.value = -9 ∧ x'.z.value = -10 := by
  let _ : Libm F64 := roundedHalf
  obtain ⟨hy, hn⟩ := roundedHalf_turn
  obtain ⟨m', h1, h2⟩ := C191_pitch (rotatable_wf _ _ (by decide)) (rotatable_tiled _ _ (by decide))
    (rotatable_float3 _ _) (rotatable_apart _ _) hn hy hn [] (half_saved (by decide +kernel))
  obtain ⟨x', h3, -, h4, h5, h6⟩ := h2 ⟨0, 0, 2, 0⟩ (by decide +kernel) (by decide) 0
    (show StartsAt 4 _ _ by decide) 1 ⟨flt 8, flt 9, flt 10⟩ rfl counted_single.2
  obtain ⟨e8, e9, e10⟩ := counted_values
  simp only [e8, e9, e10] at h4 h5 h6
  exact ⟨m', h1, x', h3, h4, h5.1 (by norm_num), h6.1 (by norm_num)⟩

/-- By half a turn of roll as `(-8, -9, 10)`. -/
example : ∃ m' : Mesh F64, load win counted.kind
      (exportMesh win (@rotate F64 _ roundedHalf counted [flt 0, flt 0, flt 180]).1).bytes = .ok m' ∧
    ∃ x', vec3At m'.vertices 8 = some x' ∧ x'.x.value = -8 ∧ x'.y.value = -9 ∧ x'.z.value = 10 := by
  let _ : Libm F64 := roundedHalf
  obtain ⟨hy, hn⟩ := roundedHalf_turn
  obtain ⟨m', h1, h2⟩ := C191_roll (rotatable_wf _ _ (by decide)) (rotatable_tiled _ _ (by decide))
    (rotatable_float3 _ _) (rotatable_apart _ _) hn hn hy [] (half_saved (by decide +kernel))
  obtain ⟨x', h3, -, h4, h5, h6⟩ := h2 ⟨0, 0, 2, 0⟩ (by decide +kernel) (by decide) 0
    (show StartsAt 4 _ _ by decide) 1 ⟨flt 8, flt 9, flt 10⟩ rfl counted_single.2
  obtain ⟨e8, e9, e10⟩ := counted_values
  simp only [e8, e9, e10] at h4 h5 h6
  exact ⟨m', h1, x', h3, h4.1 (by norm_num), h5.1 (by norm_num), h6⟩

/-- A library with both angles. -/
@[reducible] def roundedTurns : Libm F64 :=
  ⟨id, fun a => some (if a = flt 90 then flt 1 else
      if a = flt 180 then F64.ofRat false (4967757600021511 / 2 ^ 105) else plusZero),
    fun a => some (if a = flt 90 then F64.ofRat false (4967757600021511 / 2 ^ 106) else
      if a = flt 180 then F64.ofRat true (-1) else flt 1)⟩

theorem roundedTurns_turn : @QuarterTurn roundedTurns 1 (flt 90) ∧ @HalfTurn roundedTurns (flt 180) ∧
    @NoTurn roundedTurns (flt 0) := by
  refine ⟨⟨.inl rfl, F64.ofRat false (4967757600021511 / 2 ^ 106), flt 1, by decide +kernel, by decide +kernel,
    by decide +kernel, by decide +kernel, by decide +kernel, by decide +kernel⟩,
    ⟨F64.ofRat true (-1), F64.ofRat false (4967757600021511 / 2 ^ 105), by decide +kernel, by decide +kernel,
    by decide +kernel, by decide +kernel, by decide +kernel, by decide +kernel⟩,
    ⟨flt 1, by decide +kernel, by decide +kernel, by decide +kernel⟩, by decide +kernel⟩

/-- Turned by a yaw, saved and loaded. -/
def yawed (a : F64) (m : Mesh F64) : Mesh F64 :=
  (@rotate F64 _ roundedTurns m [a, flt 0, flt 0]).1.map fun x => unpackF (packF x)

theorem yawed_runs {a : F64} {m m' : Mesh F64} {ss : List Act}
    (h : (@rotate F64 _ roundedTurns m [a, flt 0, flt 0]).2 = none ∧
      (exportMesh win (@rotate F64 _ roundedTurns m [a, flt 0, flt 0]).1).err = none ∧
      load win (@rotate F64 _ roundedTurns m [a, flt 0, flt 0]).1.kind
        (exportMesh win (@rotate F64 _ roundedTurns m [a, flt 0, flt 0]).1).bytes = .ok (yawed a m))
    (runs : @Runs roundedTurns (yawed a m) ss m') :
    @Runs roundedTurns m (.turn a (flt 0) (flt 0) :: .store :: ss) m' := by
  let _ := roundedTurns
  obtain ⟨h1, h2, h3⟩ := h
  refine .cons (.turn (Prod.ext rfl h1)) (.cons (.store (pl := win) ?_ h3) runs)
  rw [← h2]

/-- The vertex at (16, 17, 18) after two half turns. -/
example : ∃ x', vec3At (yawed (flt 180) (yawed (flt 180) plainBox)).vertices (2 * 8 + 0) = some x' ∧
    x'.values = thirdVertex.values := by
  let _ : Libm F64 := roundedTurns
  obtain ⟨-, hh, hn⟩ := roundedTurns_turn
  exact C191_twice plainBox_orderly plainBox_apart (axis := .yaw) ⟨hh, hn, hn⟩
    (yawed_runs (by decide +kernel) (yawed_runs (by decide +kernel) .nil)) ⟨0, 0, 2, 0⟩
    (by decide +kernel) (by decide) 0 (show StartsAt 4 _ _ by decide) 2 thirdVertex rfl thirdVertex_level.1
    thirdVertex_level.2

/-- After two quarter turns and after a half turn. -/
example : ∃ x1 x2, vec3At (yawed (flt 90) (yawed (flt 90) plainBox)).vertices (2 * 8 + 0) = some x1 ∧
    vec3At (yawed (flt 180) plainBox).vertices (2 * 8 + 0) = some x2 ∧ x1.values = x2.values ∧
    x2.values = ⟨-16, 17, -18⟩ := by
  let _ : Libm F64 := roundedTurns
  obtain ⟨hq, hh, hn⟩ := roundedTurns_turn
  have e : halfSpin .yaw thirdVertex.values = ⟨-16, 17, -18⟩ := by decide +kernel
  rw [← e]
  exact C191_two_quarters plainBox_orderly plainBox_apart (t := yawSpin) ⟨hq, hn, hn⟩
    (yawed_runs (by decide +kernel) (yawed_runs (by decide +kernel) .nil)) ⟨hh, hn, hn⟩
    (yawed_runs (by decide +kernel) .nil) ⟨0, 0, 2, 0⟩
    (by decide +kernel) (by decide) 0 (show StartsAt 4 _ _ by decide) 2 thirdVertex rfl thirdVertex_level.1
    thirdVertex_level.2

end Bf2
