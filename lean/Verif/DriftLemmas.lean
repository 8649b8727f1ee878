import Verif.DriftSpec
import Verif.Props.RotError
import Verif.Props.FloatEdit
import Verif.Props.History

/-! Lemmas for C140. -/

namespace Bf2

noncomputable section

/-! ## Lengths -/

theorem norm3_nonneg (X : Fin 3 → ℝ) : 0 ≤ norm3 X := Real.sqrt_nonneg _

theorem norm3_fn (V : Vec3 ℝ) : norm3 V.fn = V.len := rfl

theorem norm3_sq (X : Fin 3 → ℝ) : norm3 X ^ 2 = X 0 ^ 2 + X 1 ^ 2 + X 2 ^ 2 :=
  Real.sq_sqrt (by positivity)

theorem norm3_add (X Y : Fin 3 → ℝ) : norm3 (X + Y) ≤ norm3 X + norm3 Y := by
  have hx := norm3_nonneg X
  have hy := norm3_nonneg Y
  have dot : X 0 * Y 0 + X 1 * Y 1 + X 2 * Y 2 ≤ norm3 X * norm3 Y := by
    refine abs_le_of_sq_le_sq' ?_ (mul_nonneg hx hy) |>.2
    rw [mul_pow, norm3_sq, norm3_sq]
    nlinarith [sq_nonneg (X 0 * Y 1 - X 1 * Y 0), sq_nonneg (X 0 * Y 2 - X 2 * Y 0),
      sq_nonneg (X 1 * Y 2 - X 2 * Y 1)]
  refine abs_le_of_sq_le_sq' ?_ (add_nonneg hx hy) |>.2
  rw [norm3_sq, add_sq, norm3_sq, norm3_sq]
  simp only [Pi.add_apply]
  nlinarith

theorem norm3_le {X : Fin 3 → ℝ} {β : ℝ} (h : ∀ i, |X i| ≤ β) : norm3 X ≤ 2 * β := by
  have h0 : 0 ≤ β := (abs_nonneg _).trans (h 0)
  have sq : ∀ i, X i ^ 2 ≤ β ^ 2 := fun i => by
    rw [← sq_abs (X i)]
    exact pow_le_pow_left₀ (abs_nonneg _) (h i) 2
  unfold norm3
  rw [show 2 * β = √((2 * β) ^ 2) by rw [Real.sqrt_sq (by linarith)]]
  refine Real.sqrt_le_sqrt ?_
  have := sq 0
  have := sq 1
  have := sq 2
  nlinarith

theorem comp_norm3 (X : Fin 3 → ℝ) (i : Fin 3) : |X i| ≤ norm3 X := by
  unfold norm3
  rw [← Real.sqrt_sq_eq_abs]
  refine Real.sqrt_le_sqrt ?_
  fin_cases i <;> simp <;> nlinarith [sq_nonneg (X 0), sq_nonneg (X 1), sq_nonneg (X 2)]

theorem norm3_rot (y p r : ℝ) (X : Fin 3 → ℝ) : norm3 ((rotMat y p r).mulVec X) = norm3 X := by
  have e : X = (⟨X 0, X 1, X 2⟩ : Vec3 ℝ).fn := by
    ext i
    fin_cases i <;> rfl
  rw [e, ← rotMap_real, norm3_fn, norm3_fn]
  exact len_rot (Real.cos_sq_add_sin_sq _) (Real.cos_sq_add_sin_sq _) (Real.cos_sq_add_sin_sq _) _

/-! ## One edit of a vector -/

theorem vec3At_iff {F : Type} {l : List F} {o : Nat} {x : Vec3 F} :
    vec3At l o = some x ↔ l[o]? = some x.x ∧ l[o + 1]? = some x.y ∧ l[o + 2]? = some x.z := by
  rcases x with ⟨a, b, c⟩
  unfold vec3At
  constructor
  · intro h
    split at h
    · next h1 h2 h3 =>
      simp only [Option.some.injEq, Vec3.mk.injEq] at h
      obtain ⟨rfl, rfl, rfl⟩ := h
      exact ⟨h1, h2, h3⟩
    · cases h
  · rintro ⟨h1, h2, h3⟩
    rw [h1, h2, h3]

/-- A vector of doubles within `δ` of an exact one. -/
structure Close (δ : ℝ) (x : Vec3 F64) (X : Fin 3 → ℝ) : Prop where
  fin : x.Finite
  near : norm3 (x.real.fn - X) ≤ δ

theorem Close.len {δ B : ℝ} {x : Vec3 F64} {X : Fin 3 → ℝ} (h : Close δ x X) (hX : norm3 X ≤ B) :
    norm3 x.real.fn ≤ δ + B := by
  have := norm3_add (x.real.fn - X) X
  rw [sub_add_cancel] at this
  linarith [h.near]

theorem close_of {δ β : ℝ} {x' : Vec3 F64} {Y Z : Fin 3 → ℝ} (fin : x'.Finite)
    (h1 : ∀ i, |x'.real.fn i - Y i| ≤ β) (h2 : norm3 (Y - Z) ≤ δ) : Close (δ + 2 * β) x' Z := by
  refine ⟨fin, ?_⟩
  have e : x'.real.fn - Z = (x'.real.fn - Y) + (Y - Z) := by abel
  rw [e]
  refine (norm3_add _ _).trans ?_
  have := norm3_le (X := x'.real.fn - Y) (β := β) h1
  linarith

/-- A sum of two finite doubles. -/
theorem add_close {x t : F64} {B : ℝ} (fx : x.isFin = true) (ft : t.isFin = true)
    (hb : |(x.value : ℝ) + t.value| ≤ B) (hB : B ≤ 2 ^ 1020) :
    (F64.add x t).isFin = true ∧
      |((F64.add x t).value : ℝ) - (x.value + t.value)| ≤ B * 2 ^ (-53 : ℤ) + 2 ^ (-1075 : ℤ) := by
  have h := (add_rounded fx ft).real_error (B := B) (by push_cast; exact hb) hB
  refine ⟨h.1, ?_⟩
  have h2 := h.2
  push_cast at h2
  exact h2

theorem stored_close {x : F64} {B : ℝ} (fx : x.isFin = true) (hb : |(x.value : ℝ)| ≤ B)
    (hB : B ≤ 2 ^ 127) : (unpackF (packF x)).isFin = true ∧
      |((unpackF (packF x)).value : ℝ) - x.value| ≤ B * 2 ^ (-24 : ℤ) + 2 ^ (-150 : ℤ) := by
  have hq : |x.value| ≤ 2 ^ 127 := by exact_mod_cast hb.trans hB
  obtain ⟨h1, h2⟩ := C127_stored_error x fx hq
  refine ⟨h1, ?_⟩
  have h3 : |((unpackF (packF x)).value : ℝ) - x.value| ≤ |(x.value : ℝ)| * 2 ^ (-24 : ℤ) + 2 ^ (-150 : ℤ) := by
    have := (Rat.cast_le (K := ℝ)).2 h2
    push_cast at this
    exact this
  have h4 : |(x.value : ℝ)| * 2 ^ (-24 : ℤ) ≤ B * 2 ^ (-24 : ℤ) :=
    mul_le_mul_of_nonneg_right hb (by positivity)
  linarith

/-! ## One edit of a mesh -/

theorem apart_symm (vf : Int) : Std.Symm (Apart vf) :=
  ⟨fun _ _ h ha hb o p ho hp => (h hb ha p o hp ho).symm⟩

variable [Libm F64] {vs : Nat} {ε B δ : ℝ} {m m1 : Mesh F64} {p a : VAttr} {o v : Nat} {x : Vec3 F64}
  {X : Fin 3 → ℝ}

omit [Libm F64] in
theorem move_close {d : Vec3 F64} (ord : Orderly vs m) (apart : m.vattrs.Pairwise (Apart m.vertformat))
    (hd : translate m [d.x, d.y, d.z] = (m1, none)) (fd : d.Finite) (first : FirstPosition m.vattrs p)
    (ha : a ∈ m.vattrs) (hv : VectorAttr a) (ho : StartsAt m.vertformat a o)
    (hx : vec3At m.vertices (v * vs + o) = some x) (hc : Close δ x X)
    (hX' : norm3 ((Act.move d).exact (decide (a = p)) X) ≤ B) (hδ : δ ≤ B) (hB : B ≤ 2 ^ 126) :
    ∃ x', vec3At m1.vertices (v * vs + o) = some x' ∧
      Close (δ + (Act.move d).error ε B) x' ((Act.move d).exact (decide (a = p)) X) := by
  obtain ⟨pin, pv⟩ : p ∈ m.vattrs ∧ VectorAttr p := by
    obtain ⟨pre, post, e, h1, -⟩ := first
    exact ⟨by rw [e]; simp, h1.2, .inl h1.1⟩
  obtain ⟨-, q, hq, hfit⟩ := ord.vectors p pin pv
  obtain ⟨-, o', ho', hfit'⟩ := ord.vectors a ha hv
  obtain rfl := startsAt_unique ho ho'
  obtain ⟨l, hl, -, hmv⟩ := C22_translate_moves_positions_only (d := [d.x, d.y, d.z]) ord.verts first hq
    hfit
  have e1 : m1 = { m with vertices := l } := by
    have := hd.symm.trans hl
    exact (Prod.mk.inj this).1
  obtain ⟨h0, h1, h2⟩ := vec3At_iff.1 hx
  have hB0 : 0 ≤ B := (norm3_nonneg _).trans hX'
  rw [e1]
  have m0 := hmv v o x.x (by omega) h0
  have m1 := hmv v (o + 1) x.y (by omega) h1
  have m2 := hmv v (o + 2) x.z (by omega) h2
  by_cases hap : a = p
  · subst hap
    obtain rfl := startsAt_unique ho hq
    simp only [Act.exact, decide_true, if_true] at hX' ⊢
    refine ⟨⟨F64.add x.x d.x, F64.add x.y d.y, F64.add x.z d.z⟩, vec3At_iff.2
      ⟨m0.1 _ le_rfl (by simp), m1.1 _ (by omega) (by simp), m2.1 _ (by omega) (by simp)⟩, ?_⟩
    have hY : norm3 (x.real.fn + d.real.fn) ≤ 2 * B := by
      have e : x.real.fn + d.real.fn = (x.real.fn - X) + (X + d.real.fn) := by abel
      rw [e]
      refine (norm3_add _ _).trans ?_
      linarith [hc.near]
    have big : 2 * B ≤ 2 ^ 1020 := by
      have : (2 : ℝ) * 2 ^ 126 ≤ 2 ^ 1020 := by
        rw [← pow_succ']
        exact pow_le_pow_right₀ (by norm_num) (by norm_num)
      exact (mul_le_mul_of_nonneg_left hB (by norm_num)).trans this
    have c0 := add_close hc.fin.1 fd.1 ((comp_norm3 _ 0).trans hY) big
    have c1 := add_close hc.fin.2.1 fd.2.1 ((comp_norm3 _ 1).trans hY) big
    have c2 := add_close hc.fin.2.2 fd.2.2 ((comp_norm3 _ 2).trans hY) big
    have hcl := close_of (Y := x.real.fn + d.real.fn) (Z := X + d.real.fn) (δ := δ)
      (β := 2 * B * 2 ^ (-53 : ℤ) + 2 ^ (-1075 : ℤ))
      (x' := ⟨F64.add x.x d.x, F64.add x.y d.y, F64.add x.z d.z⟩) ⟨c0.1, c1.1, c2.1⟩
      (fun i => by fin_cases i; exacts [c0.2, c1.2, c2.2])
      (by rw [add_sub_add_right_eq_sub]; exact hc.near)
    have e2 : δ + 2 * (2 * B * 2 ^ (-53 : ℤ) + 2 ^ (-1075 : ℤ)) = δ + (Act.move d).error ε B := by
      unfold Act.error
      rw [show (-51 : ℤ) = -53 + 2 by norm_num, show (-1074 : ℤ) = -1075 + 1 by norm_num,
        zpow_add₀ (by norm_num : (2 : ℝ) ≠ 0), zpow_add₀ (by norm_num : (2 : ℝ) ≠ 0)]
      ring
    rw [← e2]
    exact hcl
  · have hap' := (haveI := apart_symm m.vertformat; apart.forall) ha pin hap hv pv _ _ ho hq
    simp only [Act.exact, hap, decide_false, Bool.false_eq_true, if_false]
    refine ⟨x, vec3At_iff.2 ⟨m0.2 ?_, m1.2 ?_, m2.2 ?_⟩, hc.fin, hc.near.trans ?_⟩
    · simp only [List.length_cons, List.length_nil]; omega
    · simp only [List.length_cons, List.length_nil]; omega
    · simp only [List.length_cons, List.length_nil]; omega
    · have : 0 ≤ (Act.move d).error ε B := by unfold Act.error; positivity
      linarith

theorem turn_close {y q r : F64} (ord : Orderly vs m) (apart : m.vattrs.Pairwise (Apart m.vertformat))
    (hd : rotate m [y, q, r] = (m1, none)) (small : ε ≤ 1) (fd : (Act.turn y q r).Fine ε) (ha : a ∈ m.vattrs)
    (hv : VectorAttr a) (ho : StartsAt m.vertformat a o)
    (hx : vec3At m.vertices (v * vs + o) = some x) (hc : Close δ x X)
    (hX : norm3 X ≤ B) (hδ : δ ≤ B) (hB : B ≤ 2 ^ 126) (pos : Bool) :
    ∃ x', vec3At m1.vertices (v * vs + o) = some x' ∧
      Close (δ + (Act.turn y q r).error ε B) x' ((Act.turn y q r).exact pos X) := by
  obtain ⟨ty, tp, tr⟩ := fd
  obtain ⟨l, hl, -, hr⟩ := rotate_near ord.verts ord.vectors apart small ty tp tr []
  have e1 : m1 = { m with vertices := l } := (Prod.mk.inj (hd.symm.trans hl)).1
  have h0 : 0 ≤ ε := by
    obtain ⟨c, s, -, -, -, -, -, -, h, -⟩ := ty
    exact (abs_nonneg _).trans h
  have hlen : x.real.len ≤ 2 * B := by
    have := hc.len hX
    rw [norm3_fn] at this
    linarith
  have big : 2 * B ≤ 2 ^ 1000 := by
    have : (2 : ℝ) * 2 ^ 126 ≤ 2 ^ 1000 := by
      rw [← pow_succ']
      exact pow_le_pow_right₀ (by norm_num) (by norm_num)
    exact (mul_le_mul_of_nonneg_left hB (by norm_num)).trans this
  obtain ⟨x', Y, hx', hY, -, hn⟩ := hr a ha hv o ho v x hx hc.fin (hlen.trans big)
  refine ⟨x', by rw [e1]; exact hx', ?_⟩
  have hcl := close_of (Y := Y.fn) (Z := (Act.turn y q r).exact pos X) (δ := δ) hn.fin
    (fun i => by fin_cases i; exacts [hn.x, hn.y, hn.z])
    (by
      rw [hY]
      unfold Act.exact
      rw [← Matrix.mulVec_sub, norm3_rot]
      exact hc.near)
  refine ⟨hcl.fin, hcl.near.trans ?_⟩
  have h1 : (15 * ε + 2 ^ (-47 : ℤ)) * x.real.len ≤ (15 * ε + 2 ^ (-47 : ℤ)) * (2 * B) :=
    mul_le_mul_of_nonneg_left hlen (by positivity)
  have e2 : δ + 2 * ((15 * ε + 2 ^ (-47 : ℤ)) * (2 * B) + 2 ^ (-1070 : ℤ)) =
      δ + (Act.turn y q r).error ε B := by
    unfold Act.error
    rw [show (-1069 : ℤ) = -1070 + 1 by norm_num, zpow_add₀ (by norm_num : (2 : ℝ) ≠ 0)]
    ring
  rw [← e2]
  linarith

omit [Libm F64] in
theorem store_close {pl : Plat} {file : Bytes} (ord : Orderly vs m) (he : exportMesh pl m = ⟨file, none⟩)
    (hl : load pl m.kind file = .ok m1) (hx : vec3At m.vertices (v * vs + o) = some x) (hc : Close δ x X)
    (hX : norm3 X ≤ B) (hδ : δ ≤ B) (hB : B ≤ 2 ^ 126) (pos : Bool) :
    ∃ x', vec3At m1.vertices (v * vs + o) = some x' ∧
      Close (δ + Act.store.error ε B) x' (Act.store.exact pos X) := by
  have e1 : m1 = m.map fun x => unpackF (packF x) := by
    have := (C02_reload_of_export pl m file ord.wf he).symm.trans hl
    exact (Except.ok.inj this).symm
  have hlen : norm3 x.real.fn ≤ 2 * B := by
    have := hc.len hX
    linarith
  have big : 2 * B ≤ 2 ^ 127 := by
    have : (2 : ℝ) * 2 ^ 126 ≤ 2 ^ 127 := by
      rw [← pow_succ']
    exact (mul_le_mul_of_nonneg_left hB (by norm_num)).trans this
  have c0 := stored_close hc.fin.1 ((comp_norm3 _ 0).trans hlen) big
  have c1 := stored_close hc.fin.2.1 ((comp_norm3 _ 1).trans hlen) big
  have c2 := stored_close hc.fin.2.2 ((comp_norm3 _ 2).trans hlen) big
  refine ⟨x.map fun x => unpackF (packF x), ?_, ?_⟩
  · rw [e1]
    show vec3At (m.vertices.map _) _ = _
    rw [vec3At_map, hx]
    rfl
  · have hcl := close_of (Y := x.real.fn) (Z := X) (δ := δ) (x' := x.map fun x => unpackF (packF x))
      (β := 2 * B * 2 ^ (-24 : ℤ) + 2 ^ (-150 : ℤ)) ⟨c0.1, c1.1, c2.1⟩
      (fun i => by fin_cases i; exacts [c0.2, c1.2, c2.2]) hc.near
    have e2 : δ + 2 * (2 * B * 2 ^ (-24 : ℤ) + 2 ^ (-150 : ℤ)) = δ + Act.store.error ε B := by
      unfold Act.error
      rw [show (-22 : ℤ) = -24 + 2 by norm_num, show (-149 : ℤ) = -150 + 1 by norm_num,
        zpow_add₀ (by norm_num : (2 : ℝ) ≠ 0), zpow_add₀ (by norm_num : (2 : ℝ) ≠ 0)]
      ring
    rw [← e2]
    exact hcl

omit [Libm F64] in
theorem update_close (hd : updateBoundaries m = (m1, none))
    (hx : vec3At m.vertices (v * vs + o) = some x) (hc : Close δ x X) (pos : Bool) :
    ∃ x', vec3At m1.vertices (v * vs + o) = some x' ∧
      Close (δ + Act.update.error ε B) x' (Act.update.exact pos X) := by
  obtain ⟨gs, he, -⟩ := update_bounded m
  rw [hd] at he
  refine ⟨x, ?_, ?_⟩
  · rw [show m1 = _ from he]
    exact hx
  · unfold Act.error Act.exact
    rw [add_zero]
    exact hc

/-- Every edit is a step of a history. -/
theorem Does.step {s : Act} (h : Does m s m1) : Step m m1 := by
  cases h with
  | move h => rename_i d; have := Step.translate (m := m) [d.x, d.y, d.z]; rw [h] at this; exact this
  | turn h => rename_i y q r; have := Step.rotate (m := m) [y, q, r]; rw [h] at this; exact this
  | update h => have := Step.update (m := m); rw [h] at this; exact this
  | store he hl => exact .saveLoad he hl

theorem act_close {s : Act} (ord : Orderly vs m) (apart : m.vattrs.Pairwise (Apart m.vertformat))
    (hd : Does m s m1) (small : ε ≤ 1) (fine : s.Fine ε) (first : FirstPosition m.vattrs p)
    (ha : a ∈ m.vattrs) (hv : VectorAttr a) (ho : StartsAt m.vertformat a o)
    (hx : vec3At m.vertices (v * vs + o) = some x) (hc : Close δ x X)
    (hX : norm3 X ≤ B) (hX' : norm3 (s.exact (decide (a = p)) X) ≤ B) (hδ : δ ≤ B) (hB : B ≤ 2 ^ 126) :
    ∃ x', vec3At m1.vertices (v * vs + o) = some x' ∧
      Close (δ + s.error ε B) x' (s.exact (decide (a = p)) X) := by
  cases hd with
  | move h => exact move_close ord apart h fine first ha hv ho hx hc hX' hδ hB
  | turn h => exact turn_close ord apart h small fine ha hv ho hx hc hX hδ hB _
  | update h => exact update_close h hx hc _
  | store he hl => exact store_close ord he hl hx hc hX hδ hB _

theorem error_nonneg {s : Act} (fine : s.Fine ε) (hB : 0 ≤ B) : 0 ≤ s.error ε B := by
  cases s with
  | turn y q r =>
    obtain ⟨c, s, -, -, -, -, -, -, h, -⟩ := fine.1
    have h0 : 0 ≤ ε := (abs_nonneg _).trans h
    unfold Act.error
    positivity
  | _ => unfold Act.error; positivity

theorem runs_close {ss : List Act} (ord : Orderly vs m) (apart : m.vattrs.Pairwise (Apart m.vertformat))
    (hd : Runs m ss m1) (small : ε ≤ 1) (fine : ∀ s ∈ ss, s.Fine ε) (first : FirstPosition m.vattrs p)
    (ha : a ∈ m.vattrs) (hv : VectorAttr a) (ho : StartsAt m.vertformat a o)
    (hx : vec3At m.vertices (v * vs + o) = some x) (hc : Close δ x X)
    (hX : ∀ pre, pre <+: ss → norm3 (exactAll (decide (a = p)) pre X) ≤ B)
    (hδ : δ + (ss.map (Act.error ε B)).sum ≤ B) (hB : B ≤ 2 ^ 126) :
    ∃ x', vec3At m1.vertices (v * vs + o) = some x' ∧
      Close (δ + (ss.map (Act.error ε B)).sum) x' (exactAll (decide (a = p)) ss X) := by
  induction hd generalizing x X δ with
  | nil => exact ⟨x, hx, by simpa [exactAll] using hc⟩
  | @cons m m1 m2 s ss h hs ih =>
    have hX0 : norm3 X ≤ B := hX [] (List.nil_prefix)
    have hB0 : 0 ≤ B := (norm3_nonneg _).trans hX0
    have hX1 : norm3 (s.exact (decide (a = p)) X) ≤ B := hX [s] ⟨ss, rfl⟩
    have hsum : 0 ≤ (ss.map (Act.error ε B)).sum := by
      refine List.sum_nonneg fun t ht => ?_
      obtain ⟨u, hu, rfl⟩ := List.mem_map.1 ht
      exact error_nonneg (fine u (List.mem_cons_of_mem _ hu)) hB0
    have hs0 := error_nonneg (fine s List.mem_cons_self) hB0
    simp only [List.map_cons, List.sum_cons] at hδ ⊢
    obtain ⟨x1, hx1, hc1⟩ := act_close ord apart h small (fine s List.mem_cons_self) first ha hv ho hx hc
      hX0 hX1 (by linarith) hB
    obtain ⟨ord1, same⟩ := step_kept ord h.step
    obtain ⟨x', hx', hc'⟩ := ih ord1 (by rw [same.vattrs, same.vertformat]; exact apart)
      (fun t ht => fine t (List.mem_cons_of_mem _ ht)) (by rw [same.vattrs]; exact first)
      (by rw [same.vattrs]; exact ha) (by rw [same.vertformat]; exact ho) hx1 hc1
      (fun pre hpre => by
        obtain ⟨t, rfl⟩ := hpre
        exact hX (s :: pre) ⟨t, rfl⟩)
      (by linarith)
    refine ⟨x', hx', hc'.fin, hc'.near.trans (by linarith)⟩

end

end Bf2
