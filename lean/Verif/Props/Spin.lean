import Verif.SpinSpec
import Verif.DriftLemmas
import Verif.Props.Quarter
import Verif.Props.Drift
import Verif.Props.OldDrift

/-!
# Quarter turns one after the other, each saved (C190)
-/

namespace Bf2

theorem level_spin {v : Vec3 ℚ} (h : Level v) {σ : ℚ} (hσ : σ = 1 ∨ σ = -1) (a : Axis) : Level (spin a σ v) := by
  have h' : -σ = 1 ∨ -σ = -1 := by rcases hσ with rfl | rfl <;> norm_num
  unfold Level at *
  simp only [List.mem_cons, List.not_mem_nil, or_false, forall_eq_or_imp, forall_eq] at *
  obtain ⟨⟨a1, a2, a3⟩, ⟨b1, b2, b3⟩, c1, c2, c3⟩ := h
  cases a <;> simp only [spin, abs_signed hσ, abs_signed h'] <;> refine ⟨⟨?_, ?_, ?_⟩, ⟨?_, ?_, ?_⟩, ?_, ?_, ?_⟩ <;>
    assumption

theorem fits_signed {x y : F64} (hx : Fits x) (fy : y.isFin = true) {σ : ℚ} (hσ : σ = 1 ∨ σ = -1)
    (h : y.value = σ * x.value) : Fits y := by
  obtain ⟨w, hw, e⟩ := single_signed hx.1 hσ
  exact ⟨⟨fy, w, hw, h.trans e⟩, by rw [h, abs_signed hσ]; exact hx.2⟩

theorem single_of {x : Vec3 F64} (h1 : Fits x.x) (h2 : Fits x.y) (h3 : Fits x.z) : x.Single := by
  intro c hc
  simp only [List.mem_cons, List.not_mem_nil, or_false] at hc
  rcases hc with rfl | rfl | rfl
  exacts [h1, h2, h3]

section
variable [Libm F64]

theorem Spin.Fine.sign {t : Spin} (h : t.Fine) : t.σ = 1 ∨ t.σ = -1 := by
  unfold Spin.Fine at h
  cases ht : t.axis <;> rw [ht] at h
  exacts [h.1.1, h.2.1.1, h.2.2.1]

theorem spin_step {vs : Nat} {m m1 m2 : Mesh F64} (ord : Orderly vs m)
    (apart : m.vattrs.Pairwise (Apart m.vertformat)) {t : Spin} (fine : t.Fine)
    (hd : Does m (.turn t.yaw t.pitch t.roll) m1) (hs : Does m1 .store m2) {a : VAttr} (ha : a ∈ m.vattrs)
    (hv : VectorAttr a) {o : Nat} (ho : StartsAt m.vertformat a o) {v : Nat} {x : Vec3 F64}
    (hx : vec3At m.vertices (v * vs + o) = some x) (single : x.Single) (level : Level x.values) :
    ∃ x' : Vec3 F64, vec3At m2.vertices (v * vs + o) = some x' ∧ x'.Single ∧
      x'.values = spin t.axis t.σ x.values := by
  obtain ⟨-, same⟩ := step_kept ord hd.step
  have hσ := fine.sign
  have hσ' : -t.σ = 1 ∨ -t.σ = -1 := by rcases hσ with h | h <;> rw [h] <;> norm_num
  obtain ⟨fX, fY, fZ⟩ := single_fits single
  have lv : ∀ c ∈ [x.x.value, x.y.value, x.z.value], ∀ d ∈ [x.x.value, x.y.value, x.z.value],
      |c| ≤ 2 ^ 20 * |d| := level
  simp only [List.mem_cons, List.not_mem_nil, or_false, forall_eq_or_imp, forall_eq] at lv
  obtain ⟨⟨-, xy, xz⟩, ⟨yx, -, yz⟩, zx, zy, -⟩ := lv
  obtain ⟨axis, σ, yaw, pitch, roll⟩ := t
  cases hd with | turn hr => ?_
  cases hs with | @store _ pl file he hl => ?_
  have saved : exportMesh pl (rotate m [yaw, pitch, roll]).1 = ⟨file, none⟩ := by rw [hr]; exact he
  rw [same.kind] at hl
  cases axis with
  | yaw =>
    obtain ⟨m', h1, h2⟩ := C189_yaw ord.wf ord.verts ord.vectors apart fine.1 fine.2.1 fine.2.2 [] saved
    obtain rfl := Except.ok.inj (h1.symm.trans hl)
    obtain ⟨x', h3, ⟨g1, g2, g3⟩, l1, l2, l3⟩ := h2 a ha hv o ho v x hx single
    have e1 := l1.1 (by rw [abs_signed hσ]; exact xz)
    have e3 := l3.1 (by rw [abs_signed hσ']; exact zx)
    refine ⟨x', h3, single_of (fits_signed fZ g1 hσ e1) (fits_signed fY g2 (.inl rfl) (by rw [l2, one_mul]))
      (fits_signed fX g3 hσ' e3), ?_⟩
    show Vec3.mk _ _ _ = _
    rw [e1, l2, e3]
    rfl
  | pitch =>
    obtain ⟨m', h1, h2⟩ := C189_pitch ord.wf ord.verts ord.vectors apart fine.1 fine.2.1 fine.2.2 [] saved
    obtain rfl := Except.ok.inj (h1.symm.trans hl)
    obtain ⟨x', h3, ⟨g1, g2, g3⟩, l1, l2, l3⟩ := h2 a ha hv o ho v x hx single
    have e2 := l2.1 (by rw [abs_signed hσ']; exact yz)
    have e3 := l3.1 (by rw [abs_signed hσ]; exact zy)
    refine ⟨x', h3, single_of (fits_signed fX g1 (.inl rfl) (by rw [l1, one_mul])) (fits_signed fZ g2 hσ' e2)
      (fits_signed fY g3 hσ e3), ?_⟩
    show Vec3.mk _ _ _ = _
    rw [l1, e2, e3]
    rfl
  | roll =>
    obtain ⟨m', h1, h2⟩ := C189_roll ord.wf ord.verts ord.vectors apart fine.1 fine.2.1 fine.2.2 [] saved
    obtain rfl := Except.ok.inj (h1.symm.trans hl)
    obtain ⟨x', h3, ⟨g1, g2, g3⟩, l1, l2, l3⟩ := h2 a ha hv o ho v x hx single
    have e1 := l1.1 (by rw [abs_signed hσ']; exact xy)
    have e2 := l2.1 (by rw [abs_signed hσ]; exact yx)
    refine ⟨x', h3, single_of (fits_signed fY g1 hσ' e1) (fits_signed fX g2 hσ e2)
      (fits_signed fZ g3 (.inl rfl) (by rw [l3, one_mul])), ?_⟩
    show Vec3.mk _ _ _ = _
    rw [e1, e2, l3]
    rfl

/-- **C190.** After any number of quarter turns about any axes, each followed by saving and loading, every
position, normal and tangent that is level is exactly where they put it. -/
theorem C190_spun {vs : Nat} {m m' : Mesh F64} (ord : Orderly vs m)
    (apart : m.vattrs.Pairwise (Apart m.vertformat)) {ts : List Spin} (fine : ∀ t ∈ ts, t.Fine)
    (runs : Runs m (ts.flatMap Spin.acts) m') :
    ∀ a ∈ m.vattrs, VectorAttr a → ∀ o, StartsAt m.vertformat a o → ∀ v x,
      vec3At m.vertices (v * vs + o) = some x → x.Single → Level x.values →
      ∃ x' : Vec3 F64, vec3At m'.vertices (v * vs + o) = some x' ∧ x'.values = spinAll ts x.values := by
  intro a ha hv o ho v
  induction ts generalizing m with
  | nil =>
    intro x hx _ _
    cases runs with
    | nil => exact ⟨x, hx, rfl⟩
  | cons t ts ih =>
    intro x hx single level
    cases runs with | cons h1 runs => ?_
    cases runs with | cons h2 runs => ?_
    have ft := fine t List.mem_cons_self
    obtain ⟨x1, hx1, s1, e1⟩ := spin_step ord apart ft h1 h2 ha hv ho hx single level
    obtain ⟨ord1, same1⟩ := step_kept ord h1.step
    obtain ⟨ord2, same2⟩ := step_kept ord1 h2.step
    have ev := same2.vattrs.trans same1.vattrs
    have ef := same2.vertformat.trans same1.vertformat
    obtain ⟨x', hx', e⟩ := ih ord2 (by rw [ev, ef]; exact apart) (fun t ht => fine t (List.mem_cons_of_mem _ ht))
      runs (by rw [ev]; exact ha) (by rw [ef]; exact ho) x1 hx1 s1 (by rw [e1]; exact level_spin level ft.sign _)
    exact ⟨x', hx', by rw [e, e1]; rfl⟩

/-- **C190.** Four equal quarter turns bring every such vector back. -/
theorem C190_four {vs : Nat} {m m' : Mesh F64} (ord : Orderly vs m)
    (apart : m.vattrs.Pairwise (Apart m.vertformat)) {t : Spin} (fine : t.Fine)
    (runs : Runs m ([t, t, t, t].flatMap Spin.acts) m') :
    ∀ a ∈ m.vattrs, VectorAttr a → ∀ o, StartsAt m.vertformat a o → ∀ v x,
      vec3At m.vertices (v * vs + o) = some x → x.Single → Level x.values →
      ∃ x' : Vec3 F64, vec3At m'.vertices (v * vs + o) = some x' ∧ x'.values = x.values := by
  intro a ha hv o ho v x hx single level
  obtain ⟨x', h1, h2⟩ := C190_spun ord apart (ts := [t, t, t, t])
    (fun u hu => by simp only [List.mem_cons, List.not_mem_nil, or_false, or_self] at hu; rw [hu]; exact fine)
    runs a ha hv o ho v x hx single level
  refine ⟨x', h1, h2.trans ?_⟩
  have hσ := fine.sign
  generalize x.values = w
  obtain ⟨p, q, r⟩ := w
  obtain ⟨axis, σ, _, _, _⟩ := t
  rcases hσ with h | h <;> simp only at h <;> subst h <;> cases axis <;> simp [spinAll, spin]

theorem Spin.Fine.defined {t : Spin} (h : t.Fine) : ∀ a ∈ [t.yaw, t.pitch, t.roll],
    (Libm.cos (Libm.radians a)).isSome ∧ (Libm.sin (Libm.radians a)).isSome := by
  have q : ∀ {σ a}, QuarterTurn σ a → (Libm.cos (Libm.radians a)).isSome ∧ (Libm.sin (Libm.radians a)).isSome := by
    rintro σ a ⟨-, c, s, h1, h2, -⟩
    rw [h1, h2]; exact ⟨rfl, rfl⟩
  have n : ∀ {a}, NoTurn a → (Libm.cos (Libm.radians a)).isSome ∧ (Libm.sin (Libm.radians a)).isSome := by
    intro a h
    obtain ⟨c, s, ⟨h1, h2⟩, -⟩ := h.get
    rw [h1, h2]; exact ⟨rfl, rfl⟩
  unfold Spin.Fine at h
  intro a ha
  simp only [List.mem_cons, List.not_mem_nil, or_false] at ha
  cases ht : t.axis <;> rw [ht] at h <;> obtain ⟨h1, h2, h3⟩ := h <;> rcases ha with rfl | rfl | rfl
  exacts [q h1, n h2, n h3, n h1, q h2, n h3, n h1, n h2, q h3]

/-- **C190.** The same for `rotate` and `save` of the deprecated module, once. -/
theorem C190_deprecated {vs : Nat} {o o' : OldMesh F64} {m : Mesh F64} (twins : Twins vs o m)
    (apart : o.vattrs.Pairwise (Apart o.vertformat)) {t : Spin} (fine : t.Fine)
    (turned : oldRotate o [t.yaw, t.pitch, t.roll] = (o', none)) {pl : Plat} {file : Bytes}
    (saved : oldSave pl o' = ⟨file, none⟩) {a : VAttr} {q v : Nat} {x : Vec3 F64} (vector : VectorOf o a q)
    (hx : vec3At o.vertices (v * vs + q) = some x) (single : x.Single) (level : Level x.values) :
    ∃ r, load pl o.kind file = .ok r ∧
      ∃ x', vec3At r.vertices (v * vs + q) = some x' ∧ x'.values = spin t.axis t.σ x.values := by
  have e2 := ((C171_no_errors twins).2.1 t.yaw t.pitch t.roll [] fine.defined).2
  have tw := twins.rotate t.yaw t.pitch t.roll [] fine.defined
  rw [turned] at tw
  have h := twins.inStep
  obtain ⟨mem, hv, st⟩ := vector
  rw [h.attrs] at apart mem
  rw [h.vertformat] at apart st
  rw [h.vertices] at hx
  have hd : Does m (.turn t.yaw t.pitch t.roll) (rotate m [t.yaw, t.pitch, t.roll]).1 := .turn (pair_snd e2)
  have hk : o'.kind = o.kind := by rw [tw.inStep.kind, h.kind, rotate_kind]
  generalize (rotate m [t.yaw, t.pitch, t.roll]).1 = m1 at *
  obtain ⟨out, r1, e3, e4, hv'⟩ := oldSave_vertices tw.inStep.old.wf (by rw [saved])
  obtain rfl : file = out := by rw [saved] at e3; injection e3
  have e5 : (exportMesh pl m1).err = none := (C171_saves tw pl).1 (by rw [saved])
  obtain ⟨g, e6⟩ : ∃ g, exportMesh pl m1 = ⟨g, none⟩ := ⟨_, out_eq e5⟩
  have e7 := C02_reload_of_export pl m1 g tw.inStep.new.wf e6
  obtain ⟨x', h1, -, h2⟩ := spin_step h.new apart fine hd (.store e6 e7) mem hv st hx single level
  rw [hk] at e4
  refine ⟨r1, e4, x', ?_, h2⟩
  rw [← h1, hv', tw.inStep.vertices]
  rfl

end

open Real in
/-- **C190.** The quarter turns of the statements above are the turns by 90 degrees of `rotMat`. -/
theorem C190_quarter (v : Vec3 ℚ) {σ : ℚ} (hσ : σ = 1 ∨ σ = -1) :
    ((spin .yaw σ v).map (fun c : ℚ => (c : ℝ))).fn = (rotMat (90 * σ) 0 0).mulVec (v.map (fun c : ℚ => (c : ℝ))).fn ∧
    ((spin .pitch σ v).map (fun c : ℚ => (c : ℝ))).fn = (rotMat 0 (90 * σ) 0).mulVec (v.map (fun c : ℚ => (c : ℝ))).fn ∧
    ((spin .roll σ v).map (fun c : ℚ => (c : ℝ))).fn = (rotMat 0 0 (90 * σ)).mulVec (v.map (fun c : ℚ => (c : ℝ))).fn := by
  have h0 : deg 0 = 0 := by unfold deg; simp
  have hc : cos (deg (90 * (σ : ℝ))) = 0 := by
    rcases hσ with rfl | rfl
    · rw [show deg (90 * ((1 : ℚ) : ℝ)) = π / 2 by unfold deg; push_cast; ring, cos_pi_div_two]
    · rw [show deg (90 * ((-1 : ℚ) : ℝ)) = -(π / 2) by unfold deg; push_cast; ring, cos_neg, cos_pi_div_two]
  have hs : sin (deg (90 * (σ : ℝ))) = σ := by
    rcases hσ with rfl | rfl
    · rw [show deg (90 * ((1 : ℚ) : ℝ)) = π / 2 by unfold deg; push_cast; ring, sin_pi_div_two]; norm_num
    · rw [show deg (90 * ((-1 : ℚ) : ℝ)) = -(π / 2) by unfold deg; push_cast; ring, sin_neg, sin_pi_div_two]
      norm_num
  rw [← rotMap_real, ← rotMap_real, ← rotMap_real, h0, hc, hs, cos_zero, sin_zero]
  refine ⟨?_, ?_, ?_⟩ <;> ext i <;> fin_cases i <;>
    simp [spin, Vec3.map, Vec3.fn, rotMap, rotYaw, rotPitch, rotRoll, FArith.add, FArith.sub, FArith.mul, mul_comm]

/-! ## A sample -/

/-- A yaw by 90 degrees. -/
def yawSpin : Spin := ⟨.yaw, 1, flt 90, flt 0, flt 0⟩

theorem yawSpin_fine : @Spin.Fine roundedQuarter yawSpin :=
  ⟨roundedQuarter_turn.1, roundedQuarter_turn.2, roundedQuarter_turn.2⟩

/-- Turned, saved and loaded. -/
def spun (m : Mesh F64) : Mesh F64 :=
  (@rotate F64 _ roundedQuarter m [flt 90, flt 0, flt 0]).1.map fun x => unpackF (packF x)

theorem spun_runs {m m' : Mesh F64} {ss : List Act}
    (h : (@rotate F64 _ roundedQuarter m [flt 90, flt 0, flt 0]).2 = none ∧
      (exportMesh win (@rotate F64 _ roundedQuarter m [flt 90, flt 0, flt 0]).1).err = none ∧
      load win (@rotate F64 _ roundedQuarter m [flt 90, flt 0, flt 0]).1.kind
        (exportMesh win (@rotate F64 _ roundedQuarter m [flt 90, flt 0, flt 0]).1).bytes = .ok (spun m))
    (runs : @Runs roundedQuarter (spun m) ss m') : @Runs roundedQuarter m (yawSpin.acts ++ ss) m' := by
  let _ := roundedQuarter
  obtain ⟨h1, h2, h3⟩ := h
  refine .cons (.turn (Prod.ext rfl h1)) (.cons (.store (pl := win) ?_ h3) runs)
  rw [← h2]
  rfl

theorem plainBox_spun :
    @Runs roundedQuarter plainBox ([yawSpin, yawSpin, yawSpin, yawSpin].flatMap Spin.acts)
      (spun (spun (spun (spun plainBox)))) :=
  spun_runs (by decide +kernel) (spun_runs (by decide +kernel) (spun_runs (by decide +kernel)
    (spun_runs (by decide +kernel) (@Runs.nil roundedQuarter _))))

theorem thirdVertex_level : thirdVertex.Single ∧ Level thirdVertex.values := by
  have h : ∀ c ∈ [flt 16, flt 17, flt 18],
      unpackF (packF c) = c ∧ c.isFin = true ∧ |c.value| ≤ 2 ^ 126 := by decide +kernel
  exact ⟨fun c hc => flt_fits (h c hc), by unfold Level; decide +kernel⟩

/-- The vertex at (16, 17, 18) is back after four turns. -/
example : ∃ x', vec3At (spun (spun (spun (spun plainBox)))).vertices (2 * 8 + 0) = some x' ∧
    x'.values = thirdVertex.values :=
  @C190_four roundedQuarter _ _ _ plainBox_orderly plainBox_apart _ yawSpin_fine plainBox_spun ⟨0, 0, 2, 0⟩
    (by decide +kernel) (by decide) 0 (show StartsAt 4 _ _ by decide) 2 thirdVertex rfl thirdVertex_level.1
    thirdVertex_level.2

/-- After one turn it is at (18, 17, -16). -/
example : spinAll [yawSpin] ⟨16, 17, 18⟩ = ⟨18, 17, -16⟩ := by decide +kernel

/-- The box of the deprecated module, turned. -/
def spunOld : OldMesh F64 := (@oldRotate F64 _ roundedQuarter { staticBox with indexList := false } [flt 90, flt 0, flt 0]).1

theorem cornerBox_level : cornerBox.Single ∧ Level cornerBox.values := by
  have h : ∀ c ∈ [hf 1, hf 2, hf (-1)],
      unpackF (packF c) = c ∧ c.isFin = true ∧ |c.value| ≤ 2 ^ 126 := by decide +kernel
  exact ⟨fun c hc => flt_fits (h c hc), by unfold Level; decide +kernel⟩

/-- Its corner (1/2, 1, -1/2) is saved as (-1/2, 1, -1/2). -/
example : ∃ r, load win staticKind (oldSave win spunOld).bytes = .ok r ∧
    ∃ x', vec3At r.vertices (0 * 12 + 0) = some x' ∧ x'.values = ⟨-1 / 2, 1, -1 / 2⟩ := by
  have saved : (oldSave win spunOld).err = none := by decide +kernel
  have e : spin .yaw 1 cornerBox.values = ⟨-1 / 2, 1, -1 / 2⟩ := by decide +kernel
  rw [← e]
  have tw : @Twins roundedQuarter 12 { staticBox with indexList := false } twinMesh :=
    @Twins.load roundedQuarter _ _ _ _ _ _ twinMesh_loads.1 twinMesh_loads.2 twinMesh_orderly
      (staticBox_orderly.arrays rfl) (by decide +kernel)
  exact @C190_deprecated roundedQuarter 12 _ spunOld twinMesh tw boxAttrs_apart yawSpin yawSpin_fine
    (Prod.ext rfl (by decide +kernel)) win _ (by rw [← saved]) ⟨0, 0, 2, 0⟩ 0 0 cornerBox
    ⟨by decide +kernel, by decide, by decide +kernel⟩ (by decide +kernel) cornerBox_level.1 cornerBox_level.2

/-- **C190.** A vector that is not level need not come back: the first vertex of the box is at (0, 1, 2), after
four turns it is not. -/
theorem C190_not_level : ∃ (_ : Libm F64) (m m' : Mesh F64) (t : Spin) (x x' : Vec3 F64), Orderly 8 m ∧
    m.vattrs.Pairwise (Apart m.vertformat) ∧ t.Fine ∧ Runs m ([t, t, t, t].flatMap Spin.acts) m' ∧
    vec3At m.vertices 0 = some x ∧ x.Single ∧ vec3At m'.vertices 0 = some x' ∧ x'.values ≠ x.values := by
  obtain ⟨x', hx'⟩ := Option.isSome_iff_exists.1
    (show (vec3At (spun (spun (spun (spun plainBox)))).vertices 0).isSome = true by decide +kernel)
  have ne : (vec3At (spun (spun (spun (spun plainBox)))).vertices 0).map (fun x => x.values.x) ≠ some 0 := by
    decide +kernel
  refine ⟨roundedQuarter, plainBox, _, yawSpin, ⟨flt 0, flt 1, flt 2⟩, x', plainBox_orderly, plainBox_apart,
    yawSpin_fine, plainBox_spun, rfl, counted_single.1, hx', fun h => ne ?_⟩
  have e : Vec3.values ⟨flt 0, flt 1, flt 2⟩ = ⟨0, 1, 2⟩ := by decide +kernel
  rw [hx', Option.map_some, h, e]

end Bf2
