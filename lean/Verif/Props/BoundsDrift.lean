import Verif.BoundsDriftLemmas
import Verif.Props.Hand
import Verif.Props.Undo
import Verif.Props.BoundsAlgebra

/-!
# C186: the bounds of an edited mesh

C181 says how bounds follow one move. For any list of edits, turns among them, the updated bounds are those of the
exactly edited vertices, up to the errors of the edits.
-/

namespace Bf2

noncomputable section

/-- **C186.** After any list of moves, turns, updates and saves, an update of the bounds gives every lod and every
material the bounds of its exactly edited vertices and the origin, up to the sum of the errors of the edits. -/
theorem C186_bounds [Libm F64] {vs o : Nat} {ε B : ℝ} {m m1 m2 : Mesh F64} {p : VAttr} {acts : List Act}
    (ord : Orderly vs m) (apart : m.vattrs.Pairwise (Apart m.vertformat)) (bounded : Bounded m)
    (first : FirstPosition m.vattrs p) (mem : p ∈ m.vattrs) (vector : VectorAttr p) (hpos : PositionAt vs o m p)
    (runs : Runs m acts m1) (hu : updateBoundaries m1 = (m2, none)) (small : ε ≤ 1) (fine : ∀ s ∈ acts, s.Fine ε)
    (fin : ∀ v x, vec3At m.vertices (v * vs + o) = some x → x.Finite)
    (within : ∀ v x, vec3At m.vertices (v * vs + o) = some x →
      ∀ pre, pre <+: acts → norm3 (exactAll true pre x.real.fn) ≤ B)
    (total : (acts.map (Act.error ε B)).sum ≤ B) (big : B ≤ 2 ^ 126) :
    BoundsAre (NearBox (acts.map (Act.error ε B)).sum (exactAll true acts)) vs o m m2 := by
  have e : decide (p = p) = true := decide_eq_true rfl
  obtain ⟨ord1, ea, ef⟩ := runs_kept runs ord
  obtain ⟨hr, hl⟩ := runs.frame ord
  have near : ∀ v x, vec3At m.vertices (v * vs + o) = some x → ∃ y, vec3At m1.vertices (v * vs + o) = some y ∧
      y.Finite ∧ ∀ c, |((y.comp c).value : ℝ) - exactAll true acts x.real.fn c| ≤ (acts.map (Act.error ε B)).sum := by
    intro v x hx
    obtain ⟨y, h1, h2, h3⟩ := C140_drift ord apart runs small fine first mem vector hpos.start hx (fin v x hx)
      (by rw [e]; exact within v x hx) total big
    rw [e] at h3
    refine ⟨y, h1, h2, fun c => ?_⟩
    have := (comp_norm3 _ c).trans h3
    fin_cases c <;> exact this
  have back : ∀ v y, vec3At m1.vertices (v * vs + o) = some y → y.Finite ∧ ∃ x, vec3At m.vertices (v * vs + o) = some x ∧
      ∀ c, |((y.comp c).value : ℝ) - exactAll true acts x.real.fn c| ≤ (acts.map (Act.error ε B)).sum := by
    intro v y hy
    have hx := vec3At_some (hl ▸ vec3At_inside hy)
    obtain ⟨y', h1, h2, h3⟩ := near v _ hx
    obtain rfl : y' = y := Option.some.inj (h1.symm.trans hy)
    exact ⟨h2, _, hx, h3⟩
  have same := runs_format ord runs
  have kh : Bounded m1 := ⟨by rw [same.kind]; exact bounded.1, by rw [same.head]; exact bounded.2⟩
  have hpos1 : PositionAt vs o m1 p := ⟨by rw [ea]; exact hpos.last, by rw [ef]; exact hpos.start, hpos.wide, hpos.fits⟩
  have A := update_hull kh ord1.verts.size hpos1 ord1.verts.inside hu
  have fin1 : ∀ (a : Mat F64) y, PosOf vs o m1 a y → ∀ c, (y.comp c).isFin = true := by
    rintro a y ⟨v, -, hy⟩ c
    obtain ⟨h1, h2, h3⟩ := (back _ y hy).1
    fin_cases c
    exacts [h1, h2, h3]
  have pos1 : ∀ (a a1 : Mat F64), (a.vnum, a.vstart) = (a1.vnum, a1.vstart) → ∀ x, PosOf vs o m a x →
      ∃ y, PosOf vs o m1 a1 y ∧
        ∀ c, |((y.comp c).value : ℝ) - exactAll true acts x.real.fn c| ≤ (acts.map (Act.error ε B)).sum := by
    rintro a a1 h x ⟨v, hv, hx⟩
    obtain ⟨h1, h2⟩ := Prod.mk.inj h
    obtain ⟨y, h3, -, h4⟩ := near _ x hx
    exact ⟨y, ⟨v, by rw [← h1]; exact hv, by rw [← h2]; exact h3⟩, h4⟩
  have pos2 : ∀ (a a1 : Mat F64), (a.vnum, a.vstart) = (a1.vnum, a1.vstart) → ∀ y, PosOf vs o m1 a1 y →
      ∃ x, PosOf vs o m a x ∧
        ∀ c, |((y.comp c).value : ℝ) - exactAll true acts x.real.fn c| ≤ (acts.map (Act.error ε B)).sum := by
    rintro a a1 h y ⟨v, hv, hy⟩
    obtain ⟨h1, h2⟩ := Prod.mk.inj h
    obtain ⟨-, x, h3, h4⟩ := back _ y hy
    exact ⟨x, ⟨v, by rw [h1]; exact hv, by rw [h2]; exact h3⟩, h4⟩
  refine (forall₂_comp (forall₂_of_map hr.symm) A).imp ?_
  rintro g g2 ⟨g1, hg, A⟩
  refine (forall₂_comp (forall₂_of_map hg) A).imp ?_
  rintro l l2 ⟨l1, hl, A⟩
  have hm := forall₂_of_map hl
  refine ⟨near_of_tight (fun y ⟨a, _, hy⟩ => fin1 a y hy) A.1 ?_ ?_, ?_⟩
  · rintro x ⟨a, ha, hx⟩
    obtain ⟨a1, ha1, h⟩ := forall₂_pick hm.flip a ha
    obtain ⟨y, hy, h⟩ := pos1 a a1 h x hx
    exact ⟨y, ⟨a1, ha1, hy⟩, h⟩
  · rintro y ⟨a1, ha1, hy⟩
    obtain ⟨a, ha, h⟩ := forall₂_pick hm a1 ha1
    obtain ⟨x, hx, h⟩ := pos2 a a1 h y hy
    exact ⟨x, ⟨a, ha, hx⟩, h⟩
  · refine (forall₂_comp hm A.2).imp ?_
    rintro a a2 ⟨a1, h, mn, mx, h1, h2, h3⟩
    exact ⟨mn, mx, h1, h2, near_of_tight (fin1 a1) h3 (pos1 a a1 h) (pos2 a a1 h)⟩

/-- **C186.** So no bound is farther from zero than `B` and the errors: turning a mesh about the origin can not make
its bounds larger than the distance of its farthest vertex. -/
theorem C186_radius [Libm F64] {vs o : Nat} {ε B R : ℝ} {m m1 m2 : Mesh F64} {p : VAttr} {acts : List Act}
    (ord : Orderly vs m) (apart : m.vattrs.Pairwise (Apart m.vertformat)) (bounded : Bounded m)
    (first : FirstPosition m.vattrs p) (mem : p ∈ m.vattrs) (vector : VectorAttr p) (hpos : PositionAt vs o m p)
    (runs : Runs m acts m1) (turns : ∀ d, Act.move d ∉ acts) (hu : updateBoundaries m1 = (m2, none)) (small : ε ≤ 1)
    (pos : 0 ≤ ε) (fine : ∀ s ∈ acts, s.Fine ε) (nonneg : 0 ≤ R)
    (fin : ∀ v x, vec3At m.vertices (v * vs + o) = some x → x.Finite ∧ norm3 x.real.fn ≤ R)
    (le : R ≤ B) (total : (acts.map (Act.error ε B)).sum ≤ B) (big : B ≤ 2 ^ 126) :
    BoundsAre (fun mn mx _ => ∀ c, |((mn.comp c).value : ℝ)| ≤ R + (acts.map (Act.error ε B)).sum ∧
      |((mx.comp c).value : ℝ)| ≤ R + (acts.map (Act.error ε B)).sum) vs o m m2 := by
  have len : ∀ pre, pre <+: acts → ∀ X, norm3 (exactAll true pre X) = norm3 X := by
    intro pre hpre X
    rw [exactAll_turns fun d hd => turns d (hpre.subset hd), exactAll_length]
  have E0 : 0 ≤ (acts.map (Act.error ε B)).sum := List.sum_nonneg fun x hx => by
    obtain ⟨s, -, rfl⟩ := List.mem_map.1 hx
    exact act_error_nonneg pos (nonneg.trans le) s
  have A := C186_bounds ord apart bounded first mem vector hpos runs hu small fine (fun v x hx => (fin v x hx).1)
    (fun v x hx pre hpre => by rw [len pre hpre]; exact (fin v x hx).2.trans le) total big
  have key : ∀ (mn mx : Vec3 F64) (P : Vec3 F64 → Prop), (∀ x, P x → norm3 x.real.fn ≤ R) →
      NearBox (acts.map (Act.error ε B)).sum (exactAll true acts) mn mx P →
      ∀ c, |((mn.comp c).value : ℝ)| ≤ R + (acts.map (Act.error ε B)).sum ∧
        |((mx.comp c).value : ℝ)| ≤ R + (acts.map (Act.error ε B)).sum := by
    intro mn mx P hP h c
    have one : ∀ b : F64, (b = F64.zero ∨ ∃ x, P x ∧ |(b.value : ℝ) - exactAll true acts x.real.fn c| ≤
        (acts.map (Act.error ε B)).sum) → |(b.value : ℝ)| ≤ R + (acts.map (Act.error ε B)).sum := by
      rintro b (rfl | ⟨x, hx, h⟩)
      · rw [zero_value, Rat.cast_zero, abs_zero]
        linarith
      · have h1 := comp_norm3 (exactAll true acts x.real.fn) c
        rw [len acts List.prefix_rfl] at h1
        have h2 := hP x hx
        have h3 := abs_sub_abs_le_abs_sub (b.value : ℝ) (exactAll true acts x.real.fn c)
        linarith
    exact ⟨one _ (h.reachLow c), one _ (h.reachHigh c)⟩
  have hP : ∀ (a : Mat F64) x, PosOf vs o m a x → norm3 x.real.fn ≤ R := fun a x ⟨v, _, hx⟩ => (fin _ x hx).2
  refine List.Forall₂.imp (fun g g' hg => List.Forall₂.imp (fun l l' hl => ?_) hg) A
  refine ⟨key _ _ _ (fun x ⟨a, _, hx⟩ => hP a x hx) hl.1,
    List.Forall₂.imp (fun a a' ⟨mn, mx, e1, e2, h⟩ => ⟨mn, mx, e1, e2, key mn mx _ (hP a) h⟩) hl.2⟩

theorem NearBox.weaken {E E' : ℝ} {f : (Fin 3 → ℝ) → Fin 3 → ℝ} {mn mx : Vec3 F64} {P : Vec3 F64 → Prop}
    (h : NearBox E f mn mx P) (le : E ≤ E') : NearBox E' f mn mx P :=
  ⟨h.finite, h.origin, fun x hx c => by linarith [h.low x hx c], fun x hx c => by linarith [h.high x hx c],
    fun c => (h.reachLow c).imp id fun ⟨x, hx, h⟩ => ⟨x, hx, h.trans le⟩,
    fun c => (h.reachHigh c).imp id fun ⟨x, hx, h⟩ => ⟨x, hx, h.trans le⟩⟩

theorem BoundsAre.weaken {vs o : Nat} {E E' : ℝ} {f : (Fin 3 → ℝ) → Fin 3 → ℝ} {m m' : Mesh F64}
    (h : BoundsAre (NearBox E f) vs o m m') (le : E ≤ E') : BoundsAre (NearBox E' f) vs o m m' :=
  List.Forall₂.imp (fun _ _ hg => List.Forall₂.imp (fun _ _ hl => ⟨hl.1.weaken le,
    List.Forall₂.imp (fun _ _ ⟨mn, mx, e1, e2, h⟩ => ⟨mn, mx, e1, e2, h.weaken le⟩) hl.2⟩) hg) h

/-- **C186.** The calls that undo the edits (C184), and an update, bring the bounds back: they are those of the
vertices before all edits, up to four times the errors. -/
theorem C186_undone [Libm F64] {vs o : Nat} {ε B : ℝ} {m m1 m2 m3 : Mesh F64} {p : VAttr} {acts : List Act}
    (ord : Orderly vs m) (apart : m.vattrs.Pairwise (Apart m.vertformat)) (bounded : Bounded m)
    (first : FirstPosition m.vattrs p) (mem : p ∈ m.vattrs) (vector : VectorAttr p) (hpos : PositionAt vs o m p)
    (runs : Runs m acts m1) (undo : Runs m1 (undoAll acts) m2) (hu : updateBoundaries m2 = (m3, none)) (small : ε ≤ 1)
    (pos : 0 ≤ ε) (nonneg : 0 ≤ B) (fine : ∀ s ∈ acts ++ undoAll acts, s.Fine ε)
    (fin : ∀ v x, vec3At m.vertices (v * vs + o) = some x → x.Finite)
    (within : ∀ v x, vec3At m.vertices (v * vs + o) = some x →
      ∀ pre, pre <+: acts → norm3 (exactAll true pre x.real.fn) ≤ B)
    (total : 4 * (acts.map (Act.error ε B)).sum ≤ B) (big : B ≤ 2 ^ 126) :
    BoundsAre (NearBox (4 * (acts.map (Act.error ε B)).sum) id) vs o m m3 := by
  have le := undoAll_error pos nonneg acts
  have h := C186_bounds ord apart bounded first mem vector hpos (runs.append undo) hu small fine fin
    (fun v x hx => undoAll_within (within v x hx)) (le.trans total) big
  have e : exactAll true (acts ++ undoAll acts) = id := funext fun X => undoAll_exact true acts X
  rw [e] at h
  exact h.weaken le

/-! ## The cases are met -/

theorem plainBox_small {v : Nat} {x : Vec3 F64} (hx : vec3At plainBox.vertices (v * 8 + 0) = some x) :
    x.Finite ∧ ∀ c, |x.real.fn c| ≤ 18 := by
  have all : ∀ v ∈ List.range 3, ∀ i ∈ [0, 1, 2], ∀ x ∈ plainBox.vertices[v * 8 + i]?,
      |x.value| ≤ 18 ∧ x.isFin = true := by decide +kernel
  have hl : plainBox.vertices.length = 24 := by decide +kernel
  have hv : v < 3 := by
    have := vec3At_inside hx
    omega
  obtain ⟨h0, h1, h2⟩ := vec3At_iff.1 hx
  have a0 := all v (List.mem_range.2 hv) 0 (by simp) _ h0
  have a1 := all v (List.mem_range.2 hv) 1 (by simp) _ h1
  have a2 := all v (List.mem_range.2 hv) 2 (by simp) _ h2
  have b0 : |(x.x.value : ℝ)| ≤ 18 := by exact_mod_cast a0.1
  have b1 : |(x.y.value : ℝ)| ≤ 18 := by exact_mod_cast a1.1
  have b2 : |(x.z.value : ℝ)| ≤ 18 := by exact_mod_cast a2.1
  refine ⟨⟨a0.2, a1.2, a2.2⟩, fun c => ?_⟩
  fin_cases c
  · exact b0
  · exact b1
  · exact b2

/-- The box, moved, turned by three right angles and saved. -/
example : BoundsAre (NearBox (2 ^ (-15 : ℤ)) (exactAll true driftActs)) 8 0 plainBox (updateBoundaries driftD).1 := by
  have h := @C186_bounds quarterTurn 8 0 0 (2 ^ 6) plainBox driftD _ ⟨0, 0, 2, 0⟩ driftActs plainBox_orderly
    plainBox_apart ⟨by decide +kernel, by decide +kernel⟩ plainBox_first (by decide +kernel) (by decide) plainBox_position drift_runs
    (Prod.ext rfl (by decide +kernel)) (by norm_num) driftFine (fun v x hx => (plainBox_small hx).1)
    (fun v x hx => driftWithin (plainBox_small hx).2) (driftSum.trans (by norm_num)) (by norm_num)
  exact h.weaken driftSum

/-- It goes back (`C184_undone`), and so do its bounds. -/
example : ∃ m2, @Runs signedTurn driftD (undoAll driftActs) m2 ∧
    ∀ m3, updateBoundaries m2 = (m3, none) → BoundsAre (NearBox (2 ^ (-13 : ℤ)) id) 8 0 plainBox m3 := by
  obtain ⟨m2, h2, -⟩ := @C184_undone signedTurn 8 0 0 (2 ^ 6) plainBox driftD ⟨0, 0, 2, 0⟩ driftActs plainBox_orderly
    plainBox_apart plainBox_first (by decide) (by decide) signed_runs (by norm_num) le_rfl undoFine
    (undoSum.trans (by norm_num)) (by norm_num)
  refine ⟨m2, h2, fun m3 h3 => ?_⟩
  exact (@C186_undone signedTurn 8 0 0 (2 ^ 6) plainBox driftD m2 m3 ⟨0, 0, 2, 0⟩ driftActs plainBox_orderly
    plainBox_apart ⟨by decide +kernel, by decide +kernel⟩ plainBox_first (by decide +kernel) (by decide)
    plainBox_position signed_runs h2 h3 (by norm_num) le_rfl (by norm_num) undoFine
    (fun v x hx => (plainBox_small hx).1) (fun v x hx => driftWithin (plainBox_small hx).2)
    (undoSum.trans (by norm_num)) (by norm_num)).weaken undoSum

def spunBox : Mesh F64 := (@rotate F64 _ quarterTurn plainBox [flt 90, flt 90, flt 90]).1

/-- The box, turned by three right angles: its vertices are no more than 36 from the origin. -/
example : (updateBoundaries spunBox).1 ≠ (updateBoundaries plainBox).1 ∧
    BoundsAre (fun mn mx _ => ∀ c, |((mn.comp c).value : ℝ)| ≤ 37 ∧ |((mx.comp c).value : ℝ)| ≤ 37) 8 0 plainBox
      (updateBoundaries spunBox).1 := by
  refine ⟨by decide +kernel, ?_⟩
  have fine : ∀ s ∈ [Act.turn (flt 90) (flt 90) (flt 90)], @Act.Fine quarterTurn 0 s := fun s hs =>
    driftFine s (by simp only [List.mem_singleton] at hs; subst hs; simp [driftActs])
  have hs : ([Act.turn (flt 90) (flt 90) (flt 90)].map (Act.error 0 (2 ^ 6))).sum ≤ 2 ^ (-15 : ℤ) := by
    refine le_trans ?_ driftSum
    simp only [driftActs, List.map_cons, List.map_nil, List.sum_cons, List.sum_nil, Act.error]
    have h1 : (0 : ℝ) ≤ 2 ^ (-22 : ℤ) * 2 ^ 6 + 2 ^ (-149 : ℤ) := by positivity
    have h2 := act_error_nonneg (ε := 0) (B := 2 ^ 6) le_rfl (by norm_num) (.move thirdStep)
    simp only [Act.error] at h2
    linarith
  have h := @C186_radius quarterTurn 8 0 0 (2 ^ 6) 36 plainBox spunBox _ ⟨0, 0, 2, 0⟩
    [.turn (flt 90) (flt 90) (flt 90)] plainBox_orderly plainBox_apart ⟨by decide +kernel, by decide +kernel⟩
    plainBox_first (by decide +kernel) (by decide) plainBox_position
    (@Runs.cons quarterTurn _ _ _ _ _ (@Does.turn quarterTurn _ _ _ _ _ (Prod.ext rfl (by decide +kernel)))
      (@Runs.nil quarterTurn _))
    (by simp) (Prod.ext rfl (by decide +kernel)) (by norm_num) le_rfl fine (by norm_num)
    (fun v x hx => ⟨(plainBox_small hx).1, (norm3_le (plainBox_small hx).2).trans (by norm_num)⟩) (by norm_num)
    (hs.trans (by norm_num)) (by norm_num)
  have le : 36 + ([Act.turn (flt 90) (flt 90) (flt 90)].map (Act.error 0 (2 ^ 6))).sum ≤ 37 := by
    have : (2 : ℝ) ^ (-15 : ℤ) ≤ 1 := by norm_num
    linarith
  exact List.Forall₂.imp (fun g g' hg => List.Forall₂.imp (fun l l' hl => ⟨fun c => ⟨(hl.1 c).1.trans le,
    (hl.1 c).2.trans le⟩, List.Forall₂.imp (fun a a' ⟨mn, mx, e1, e2, h⟩ => ⟨mn, mx, e1, e2, fun c =>
      ⟨(h c).1.trans le, (h c).2.trans le⟩⟩) hl.2⟩) hg) h

end

end Bf2
