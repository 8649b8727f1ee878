import Verif.CleanSpec
import Verif.UndoLemmas
import Verif.Props.Snap

/-!
# Edits that stay within binary32 are carried out exactly (C193)
-/

namespace Bf2

theorem binary32_double {w : ℚ} (h : Binary32 w) : ∃ z : F64, z.isFin = true ∧ z.value = w := by
  obtain ⟨b, hb, rfl⟩ := h
  exact ⟨unpackF b, C51_read_exact b hb⟩

/-- A sum in binary32 is exact. -/
theorem add_exact {x t : F64} {w : ℚ} (fx : x.isFin = true) (ft : t.isFin = true) (hw : Binary32 w)
    (h : (x.value : ℝ) + t.value = w) : (F64.add x t).isFin = true ∧ ((F64.add x t).value : ℝ) = x.value + t.value := by
  have h' : w = x.value + t.value := by exact_mod_cast h.symm
  obtain ⟨z, fz, ez⟩ := binary32_double hw
  obtain ⟨f, e⟩ := (add_rounded fx ft).exact fz (ez.trans h')
  exact ⟨f, by rw [e]; push_cast; rfl⟩

/-- A number of binary32 is stored exactly. -/
theorem store_exact {x : F64} {w : ℚ} (fx : x.isFin = true) (hw : Binary32 w) (h : (x.value : ℝ) = w)
    (b : |(w : ℝ)| ≤ 2 ^ 118) :
    (unpackF (packF x)).isFin = true ∧ ((unpackF (packF x)).value : ℝ) = x.value := by
  obtain ⟨f, e⟩ := stored_snaps (δ := 0) fx hw (b.trans (pow_le_pow_right₀ (by norm_num) (by norm_num)))
    (by positivity) (by rw [h, sub_self, abs_zero]; positivity)
  exact ⟨f, by rw [e, h]⟩

/-- The vector is finite and has exactly these coordinates. -/
structure HasValues (x : Vec3 F64) (X : Fin 3 → ℝ) : Prop where
  fin : x.Finite
  eq : x.real.fn = X

variable [Libm F64] {vs : Nat} {m m1 m2 : Mesh F64} {p a : VAttr} {o v : Nat} {x : Vec3 F64} {X : Fin 3 → ℝ}

omit [Libm F64] in
theorem move_exact {d : Vec3 F64} (ord : Orderly vs m) (apart : m.vattrs.Pairwise (Apart m.vertformat))
    (hd : translate m [d.x, d.y, d.z] = (m1, none)) (fd : d.Finite) (first : FirstPosition m.vattrs p)
    (ha : a ∈ m.vattrs) (hv : VectorAttr a) (ho : StartsAt m.vertformat a o)
    (hx : vec3At m.vertices (v * vs + o) = some x) (hc : HasValues x X)
    (hX : Exactly ((Act.move d).exact (decide (a = p)) X)) :
    ∃ x', vec3At m1.vertices (v * vs + o) = some x' ∧ HasValues x' ((Act.move d).exact (decide (a = p)) X) := by
  obtain ⟨pin, pv⟩ : p ∈ m.vattrs ∧ VectorAttr p := by
    obtain ⟨pre, post, e, h1, -⟩ := first
    exact ⟨by rw [e]; simp, h1.2, .inl h1.1⟩
  obtain ⟨-, q, hq, hfit⟩ := ord.vectors p pin pv
  obtain ⟨-, o', ho', hfit'⟩ := ord.vectors a ha hv
  obtain rfl := startsAt_unique ho ho'
  obtain ⟨l, hl, -, hmv⟩ := C22_translate_moves_positions_only (d := [d.x, d.y, d.z]) ord.verts first hq hfit
  have e1 : m1 = { m with vertices := l } := (Prod.mk.inj (hd.symm.trans hl)).1
  obtain ⟨h0, h1, h2⟩ := vec3At_iff.1 hx
  rw [e1]
  have m0 := hmv v o x.x (by omega) h0
  have m1 := hmv v (o + 1) x.y (by omega) h1
  have m2 := hmv v (o + 2) x.z (by omega) h2
  by_cases hap : a = p
  · subst hap
    obtain rfl := startsAt_unique ho hq
    simp only [Act.exact, decide_true, if_true] at hX ⊢
    refine ⟨⟨F64.add x.x d.x, F64.add x.y d.y, F64.add x.z d.z⟩, vec3At_iff.2
      ⟨m0.1 _ le_rfl (by simp), m1.1 _ (by omega) (by simp), m2.1 _ (by omega) (by simp)⟩, ?_⟩
    obtain ⟨fin, rfl⟩ := hc
    obtain ⟨w0, b0, g0, -⟩ := hX 0
    obtain ⟨w1, b1, g1, -⟩ := hX 1
    obtain ⟨w2, b2, g2, -⟩ := hX 2
    obtain ⟨f0, c0⟩ := add_exact fin.1 fd.1 b0 g0
    obtain ⟨f1, c1⟩ := add_exact fin.2.1 fd.2.1 b1 g1
    obtain ⟨f2, c2⟩ := add_exact fin.2.2 fd.2.2 b2 g2
    refine ⟨⟨f0, f1, f2⟩, ?_⟩
    ext i
    fin_cases i
    exacts [c0, c1, c2]
  · have hap' := (haveI := apart_symm m.vertformat; apart.forall) ha pin hap hv pv _ _ ho hq
    simp only [Act.exact, hap, decide_false, Bool.false_eq_true, if_false]
    refine ⟨x, vec3At_iff.2 ⟨m0.2 ?_, m1.2 ?_, m2.2 ?_⟩, hc⟩
    · simp only [List.length_cons, List.length_nil]; omega
    · simp only [List.length_cons, List.length_nil]; omega
    · simp only [List.length_cons, List.length_nil]; omega

omit [Libm F64] in
theorem stored_exact {pl : Plat} {file : Bytes} (ord : Orderly vs m) (he : exportMesh pl m = ⟨file, none⟩)
    (hl : load pl m.kind file = .ok m1) (hx : vec3At m.vertices (v * vs + o) = some x) (hc : HasValues x X)
    (hX : Exactly X) : ∃ x', vec3At m1.vertices (v * vs + o) = some x' ∧ HasValues x' X := by
  have e1 : m1 = m.map fun x => unpackF (packF x) :=
    (Except.ok.inj ((C02_reload_of_export pl m file ord.wf he).symm.trans hl)).symm
  refine ⟨x.map fun x => unpackF (packF x), ?_, ?_⟩
  · rw [e1]
    show vec3At (m.vertices.map _) _ = _
    rw [vec3At_map, hx]
    rfl
  · obtain ⟨fin, rfl⟩ := hc
    obtain ⟨w0, b0, g0, s0⟩ := hX 0
    obtain ⟨w1, b1, g1, s1⟩ := hX 1
    obtain ⟨w2, b2, g2, s2⟩ := hX 2
    obtain ⟨f0, c0⟩ := store_exact fin.1 b0 g0 s0
    obtain ⟨f1, c1⟩ := store_exact fin.2.1 b1 g1 s1
    obtain ⟨f2, c2⟩ := store_exact fin.2.2 b2 g2 s2
    refine ⟨⟨f0, f1, f2⟩, ?_⟩
    ext i
    fin_cases i
    exacts [c0, c1, c2]

omit [Libm F64] in
theorem exactly_len (h : Exactly X) : norm3 X ≤ 2 ^ 120 := by
  have : norm3 X ≤ 2 * 2 ^ 118 := norm3_le fun i => by
    obtain ⟨w, -, e, b⟩ := h i
    rw [e]; exact b
  refine this.trans ?_
  norm_num

theorem turn_exact {y q r : F64} (ord : Orderly vs m) (apart : m.vattrs.Pairwise (Apart m.vertformat))
    (hd : Does m (.turn y q r) m1) (hs : Does m1 .store m2) (fine : (Block.turn y q r).Fine) (ha : a ∈ m.vattrs)
    (hv : VectorAttr a) (ho : StartsAt m.vertformat a o) (hx : vec3At m.vertices (v * vs + o) = some x)
    (hc : HasValues x X) (h0 : Exactly X) (hX : Exactly ((rotMat y.value q.value r.value).mulVec X))
    (keeps : ∀ i w, (rotMat y.value q.value r.value).mulVec X i = (w : ℚ) → norm3 X ≤ 2 ^ 18 * |(w : ℝ)|) :
    ∃ x', vec3At m2.vertices (v * vs + o) = some x' ∧ HasValues x' ((rotMat y.value q.value r.value).mulVec X) := by
  obtain ⟨-, same⟩ := step_kept ord hd.step
  obtain ⟨ε, small, ty, tp, tr⟩ := fine
  cases hd with | turn hr => ?_
  cases hs with | @store _ pl file he hl => ?_
  have saved : exportMesh pl (rotate m [y, q, r]).1 = ⟨file, none⟩ := by rw [hr]; exact he
  rw [same.kind] at hl
  obtain ⟨m', h1, h2⟩ := C192_exact ord.wf ord.verts ord.vectors apart small ty tp tr [] saved
  obtain rfl := Except.ok.inj (h1.symm.trans hl)
  obtain ⟨fin, rfl⟩ := hc
  obtain ⟨x', h3, h4, h5⟩ := h2 a ha hv o ho v x hx fin (exactly_len h0)
  refine ⟨x', h3, h4, ?_⟩
  ext i
  obtain ⟨w, hw, e, -⟩ := hX i
  rw [h5 i w hw e (keeps i w e), e]

/-- **C193.** A list of moves, saved turns, updates of the bounds and saves under which a vector, edited exactly,
always is in binary32, and after a turn has no coordinate that is small beside it, is carried out exactly. -/
theorem C193_exact {bs : List Block} (ord : Orderly vs m) (apart : m.vattrs.Pairwise (Apart m.vertformat))
    (runs : Runs m (bs.flatMap Block.acts) m2) (fine : ∀ b ∈ bs, b.Fine) (first : FirstPosition m.vattrs p)
    (ha : a ∈ m.vattrs) (hv : VectorAttr a) (ho : StartsAt m.vertformat a o)
    (hx : vec3At m.vertices (v * vs + o) = some x) (fin : x.Finite) (start : Exactly x.real.fn)
    (clean : Clean (decide (a = p)) bs x.real.fn) :
    ∃ x', vec3At m2.vertices (v * vs + o) = some x' ∧ x'.Finite ∧
      x'.real.fn = exactAll (decide (a = p)) (bs.flatMap Block.acts) x.real.fn := by
  have hc : HasValues x x.real.fn := ⟨fin, rfl⟩
  clear fin
  generalize x.real.fn = X at *
  induction bs generalizing m x X with
  | nil =>
    cases runs with
    | nil => exact ⟨x, hx, hc.fin, hc.eq⟩
  | cons b bs ih =>
    obtain ⟨c1, c2, c3⟩ := clean
    have fb := fine b List.mem_cons_self
    have step : ∀ m1 : Mesh F64, Runs m1 (bs.flatMap Block.acts) m2 → (Orderly vs m1 ∧ SameFormat m m1) →
        (∃ x1, vec3At m1.vertices (v * vs + o) = some x1 ∧ HasValues x1 (exactAll (decide (a = p)) b.acts X)) →
        ∃ x', vec3At m2.vertices (v * vs + o) = some x' ∧ x'.Finite ∧
          x'.real.fn = exactAll (decide (a = p)) ((b :: bs).flatMap Block.acts) X := by
      rintro m1 runs1 ⟨ord1, same⟩ ⟨x1, hx1, hc1⟩
      rw [List.flatMap_cons, exactAll_append]
      exact ih ord1 (by rw [same.vattrs, same.vertformat]; exact apart) runs1
        (fun b hb => fine b (List.mem_cons_of_mem _ hb)) (by rw [same.vattrs]; exact first)
        (by rw [same.vattrs]; exact ha) (by rw [same.vertformat]; exact ho) hx1 _ c1 c3 hc1
    cases b with
    | move d =>
      cases runs with | cons h runs => ?_
      refine step _ runs (step_kept ord h.step) ?_
      cases h with | move h => exact move_exact ord apart h fb first ha hv ho hx hc c1
    | turn y q r =>
      cases runs with | cons h runs => ?_
      cases runs with | cons g runs => ?_
      obtain ⟨ord1, same1⟩ := step_kept ord h.step
      obtain ⟨ord2, same2⟩ := step_kept ord1 g.step
      exact step _ runs ⟨ord2, same1.trans same2⟩ (turn_exact ord apart h g fb ha hv ho hx hc start c1 c2)
    | update =>
      cases runs with | cons h runs => ?_
      refine step _ runs (step_kept ord h.step) ?_
      cases h with | update h => ?_
      obtain ⟨gs, he, -⟩ := update_bounded m
      rw [h] at he
      dsimp only at he
      exact ⟨x, by rw [he]; exact hx, hc⟩
    | store =>
      cases runs with | cons h runs => ?_
      refine step _ runs (step_kept ord h.step) ?_
      cases h with | store he hl => exact stored_exact ord he hl hx hc start

/-- **C193.** Moved, saved, moved back and saved: a position is exactly where it was, if it was and is in binary32. -/
theorem C193_there_and_back {d : Vec3 F64} (ord : Orderly vs m) (apart : m.vattrs.Pairwise (Apart m.vertformat))
    (runs : Runs m [.move d, .store, .move ⟨d.x.negate, d.y.negate, d.z.negate⟩, .store] m2) (finite : d.Finite)
    (first : FirstPosition m.vattrs p) (hp : VectorAttr p) (ho : StartsAt m.vertformat p o)
    (hx : vec3At m.vertices (v * vs + o) = some x) (fin : x.Finite) (here : Exactly x.real.fn)
    (there : Exactly (x.real.fn + d.real.fn)) :
    ∃ x', vec3At m2.vertices (v * vs + o) = some x' ∧ x'.Finite ∧ x'.real.fn = x.real.fn := by
  have pin : p ∈ m.vattrs := by
    obtain ⟨pre, post, e, -⟩ := first
    rw [e]
    simp
  have neg : (⟨d.x.negate, d.y.negate, d.z.negate⟩ : Vec3 F64).real.fn = -d.real.fn := by
    ext i
    fin_cases i <;> simp [Vec3.real, Vec3.fn, negate_value]
  have nfin : ∀ t : F64, t.negate.isFin = t.isFin := fun t => by cases t; rfl
  have back : x.real.fn + d.real.fn + (⟨d.x.negate, d.y.negate, d.z.negate⟩ : Vec3 F64).real.fn = x.real.fn := by
    rw [neg]; abel
  have e1 : ∀ (e : Vec3 F64) X, exactAll true (Block.move e).acts X = X + e.real.fn := fun _ _ => rfl
  have e2 : ∀ X, exactAll true Block.store.acts X = X := fun _ => rfl
  obtain ⟨x', h1, h2, h3⟩ := C193_exact
    (bs := [.move d, .store, .move ⟨d.x.negate, d.y.negate, d.z.negate⟩, .store]) ord apart runs
    (by
      intro b hb
      simp only [List.mem_cons, List.not_mem_nil, or_false] at hb
      rcases hb with rfl | rfl | rfl | rfl
      · exact finite
      · trivial
      · exact ⟨(nfin _).trans finite.1, (nfin _).trans finite.2.1, (nfin _).trans finite.2.2⟩
      · trivial)
    first pin hp ho hx fin here
    (by
      rw [decide_eq_true rfl]
      simp only [Clean, e1, e2, back]
      exact ⟨there, fun _ _ _ => trivial, there, fun _ _ _ => trivial, here, fun _ _ _ => trivial, here,
        fun _ _ _ => trivial, trivial⟩)
  refine ⟨x', h1, h2, h3.trans ?_⟩
  rw [decide_eq_true rfl]
  exact back

/-! ## A sample -/

omit [Libm F64] in
theorem exactly_of {b c d : ℚ} (h : ∀ w ∈ [b, c, d], Binary32 w ∧ |w| ≤ 2 ^ 118) :
    Exactly ![(b : ℝ), (c : ℝ), (d : ℝ)] := by
  have one : ∀ w ∈ [b, c, d], ∃ w' : ℚ, Binary32 w' ∧ (w : ℝ) = w' ∧ |(w' : ℝ)| ≤ 2 ^ 118 := fun w hw =>
    ⟨w, (h w hw).1, rfl, by exact_mod_cast (h w hw).2⟩
  intro i
  fin_cases i
  exacts [one b (by simp), one c (by simp), one d (by simp)]

omit [Libm F64] in
theorem binary32_of {x : F64} {w : ℚ} (h : ¬ Special32 (packF x) ∧ w = val32 (packF x)) : Binary32 w := ⟨_, h⟩

/-- (1, 2, 3). -/
def littleMove : Vec3 F64 := ⟨flt 1, flt 2, flt 3⟩

omit [Libm F64] in
theorem littleMove_fn : littleMove.Finite ∧ littleMove.real.fn = ![1, 2, 3] := by
  have h0 : (flt 1).value = 1 ∧ (flt 2).value = 2 ∧ (flt 3).value = 3 := by decide +kernel
  refine ⟨⟨by decide +kernel, by decide +kernel, by decide +kernel⟩, ?_⟩
  ext i
  fin_cases i <;> simp [Vec3.real, Vec3.fn, littleMove, h0]

omit [Libm F64] in
theorem start_exactly : Exactly ![(16 : ℝ), 17, 18] := by
  have := exactly_of (b := 16) (c := 17) (d := 18) (by
    intro w hw
    simp only [List.mem_cons, List.not_mem_nil, or_false] at hw
    rcases hw with rfl | rfl | rfl
    exacts [⟨binary32_of (x := flt 16) (by decide +kernel), by norm_num⟩,
      ⟨binary32_of (x := flt 17) (by decide +kernel), by norm_num⟩,
      ⟨binary32_of (x := flt 18) (by decide +kernel), by norm_num⟩])
  exact_mod_cast this

omit [Libm F64] in
theorem moved_exactly : Exactly ![(17 : ℝ), 19, 21] := by
  have := exactly_of (b := 17) (c := 19) (d := 21) (by
    intro w hw
    simp only [List.mem_cons, List.not_mem_nil, or_false] at hw
    rcases hw with rfl | rfl | rfl
    exacts [⟨binary32_of (x := flt 17) (by decide +kernel), by norm_num⟩,
      ⟨binary32_of (x := flt 19) (by decide +kernel), by norm_num⟩,
      ⟨binary32_of (x := flt 21) (by decide +kernel), by norm_num⟩])
  exact_mod_cast this

omit [Libm F64] in
theorem turned_exactly : Exactly ![(21 : ℝ), 19, -17] := by
  have := exactly_of (b := 21) (c := 19) (d := -17) (by
    intro w hw
    simp only [List.mem_cons, List.not_mem_nil, or_false] at hw
    rcases hw with rfl | rfl | rfl
    exacts [⟨binary32_of (x := flt 21) (by decide +kernel), by norm_num⟩,
      ⟨binary32_of (x := flt 19) (by decide +kernel), by norm_num⟩,
      ⟨binary32_of (x := F64.ofRat true (-17)) (by decide +kernel), by norm_num [abs_of_pos]⟩])
  exact_mod_cast this

omit [Libm F64] in
theorem little_sum : (![16, 17, 18] : Fin 3 → ℝ) + ![1, 2, 3] = ![17, 19, 21] := by
  ext i
  fin_cases i <;> norm_num

omit [Libm F64] in
theorem quarter_moved : (rotMat ((flt 90).value : ℝ) ((flt 0).value : ℝ) ((flt 0).value : ℝ)).mulVec ![17, 19, 21] =
    ![21, 19, -17] := by
  have h : (flt 90).value = 90 ∧ (flt 0).value = 0 := by decide +kernel
  have := (C190_quarter ⟨17, 19, 21⟩ (.inl rfl)).1
  rw [h.1, h.2]
  norm_num [spin, Vec3.map, Vec3.fn] at this ⊢
  exact this.symm

omit [Libm F64] in
theorem roundedTurns_zero : @TrigWithin roundedTurns (2 ^ (-52 : ℤ)) (flt 0) := by
  have h : (flt 0).value = 0 ∧ (flt 1).value = 1 ∧ plusZero.value = 0 := by decide +kernel
  have d0 : deg ((flt 0).value : ℝ) = 0 := by rw [h.1]; unfold deg; simp
  refine ⟨flt 1, plusZero, by decide +kernel, by decide +kernel, by decide +kernel, by decide +kernel, ?_⟩
  rw [d0, Real.cos_zero, Real.sin_zero, h.2.1, h.2.2]
  norm_num

/-- The box, moved. -/
def littleMoved : Mesh F64 := (translate plainBox [flt 1, flt 2, flt 3]).1

omit [Libm F64] in
theorem littleMoved_runs : @Runs roundedTurns plainBox ([.move littleMove, .turn (flt 90) (flt 0) (flt 0)].flatMap
    Block.acts) (yawed (flt 90) littleMoved) :=
  @Runs.cons roundedTurns _ littleMoved _ _ _
    (@Does.move roundedTurns _ _ littleMove (Prod.ext rfl (by decide +kernel)))
    (yawed_runs (by decide +kernel) (@Runs.nil roundedTurns _))

omit [Libm F64] in
/-- The vertex at (16, 17, 18), moved to (17, 19, 21) and turned, is at (21, 19, -17). -/
example : ∃ x', vec3At (yawed (flt 90) littleMoved).vertices (2 * 8 + 0) = some x' ∧ x'.Finite ∧
    x'.real.fn = ![21, 19, -17] := by
  let _ : Libm F64 := roundedTurns
  have e1 : exactAll true (Block.move littleMove).acts ![16, 17, 18] = ![17, 19, 21] := by
    show ![16, 17, 18] + littleMove.real.fn = _
    rw [littleMove_fn.2, little_sum]
  have e2 : exactAll true (Block.turn (flt 90) (flt 0) (flt 0)).acts ![17, 19, 21] = ![21, 19, -17] := quarter_moved
  have fine : ∀ b ∈ [Block.move littleMove, .turn (flt 90) (flt 0) (flt 0)], b.Fine := by
    intro b hb
    simp only [List.mem_cons, List.not_mem_nil, or_false] at hb
    rcases hb with rfl | rfl
    · exact littleMove_fn.1
    · exact ⟨2 ^ (-52 : ℤ), zpow_le_zpow_right₀ (by norm_num) (by norm_num), roundedTurns_within.1,
        roundedTurns_zero, roundedTurns_zero⟩
  have keeps : ∀ i w, (![21, 19, -17] : Fin 3 → ℝ) i = (w : ℚ) →
      norm3 ![17, 19, 21] ≤ 2 ^ 18 * |(w : ℝ)| := by
    intro i w h
    have h1 : norm3 ![17, 19, 21] ≤ 2 * 21 := norm3_le fun j => by fin_cases j <;> norm_num [abs_of_pos]
    have h2 : (1 : ℝ) ≤ |(w : ℝ)| := by rw [← h]; fin_cases i <;> norm_num [abs_of_pos]
    linarith
  obtain ⟨x', h1, h2, h3⟩ := C193_exact (v := 2) (o := 0) (x := thirdVertex) plainBox_orderly plainBox_apart
    littleMoved_runs fine plainBox_first (a := ⟨0, 0, 2, 0⟩) (by decide +kernel) (by decide)
    (show StartsAt 4 _ _ by decide) rfl ⟨by decide +kernel, by decide +kernel, by decide +kernel⟩
    (by rw [thirdVertex_fn]; exact start_exactly)
    (by
      rw [thirdVertex_fn, decide_eq_true rfl]
      simp only [Clean, e1, e2]
      exact ⟨moved_exactly, fun _ _ _ => trivial, turned_exactly, keeps, trivial⟩)
  refine ⟨x', h1, h2, h3.trans ?_⟩
  rw [thirdVertex_fn, decide_eq_true rfl, List.flatMap_cons, exactAll_append, e1]
  exact e2

/-- Moved, saved and loaded. -/
def carried (d : Vec3 F64) (m : Mesh F64) : Mesh F64 :=
  (translate m [d.x, d.y, d.z]).1.map fun x => unpackF (packF x)

theorem carried_runs {d : Vec3 F64} {m m' : Mesh F64} {ss : List Act}
    (h : (translate m [d.x, d.y, d.z]).2 = none ∧ (exportMesh win (translate m [d.x, d.y, d.z]).1).err = none ∧
      load win (translate m [d.x, d.y, d.z]).1.kind (exportMesh win (translate m [d.x, d.y, d.z]).1).bytes =
        .ok (carried d m))
    (runs : Runs (carried d m) ss m') : Runs m (.move d :: .store :: ss) m' := by
  obtain ⟨h1, h2, h3⟩ := h
  refine .cons (.move (Prod.ext rfl h1)) (.cons (.store (pl := win) ?_ h3) runs)
  rw [← h2]

/-- The vertex is back at (16, 17, 18). -/
example : ∃ x', vec3At (carried ⟨littleMove.x.negate, littleMove.y.negate, littleMove.z.negate⟩
    (carried littleMove plainBox)).vertices (2 * 8 + 0) = some x' ∧ x'.Finite ∧ x'.real.fn = thirdVertex.real.fn :=
  C193_there_and_back (v := 2) (o := 0) (x := thirdVertex) plainBox_orderly plainBox_apart
    (carried_runs (by decide +kernel) (carried_runs (by decide +kernel) .nil)) littleMove_fn.1 plainBox_first
    (by decide) (show StartsAt 4 _ _ by decide) rfl ⟨by decide +kernel, by decide +kernel, by decide +kernel⟩
    (by rw [thirdVertex_fn]; exact start_exactly)
    (by rw [thirdVertex_fn, littleMove_fn.2, little_sum]; exact moved_exactly)

end Bf2
