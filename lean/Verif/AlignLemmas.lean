import Verif.AlignSpec
import Verif.DriftLemmas
import Verif.Props.ColFormat
import Verif.ColEditLemmas

/-!
# One edit of a collision mesh
-/

namespace Bf2

theorem vertexAt_translate {F φ : Type} [FArith F] (off : Vec3 F) (m : ColMesh F φ) (i j k n : Nat) :
    (colTranslate off m).vertexAt i j k n = (m.vertexAt i j k n).map fun v => v.plus off := by
  unfold ColMesh.vertexAt
  rw [colTranslate_lodAt]
  rcases m.lodAt i j k with _ | l
  · rfl
  · simp only [Option.map_some, Option.bind_some, List.getElem?_map]

theorem vertexAt_map {F G φ ψ : Type} (f : F → G) (g : φ → ψ) (m : ColMesh F φ) (i j k n : Nat) :
    (m.map f g).vertexAt i j k n = (m.vertexAt i j k n).map (Vec3.map f) := by
  unfold ColMesh.vertexAt ColMesh.lodAt ColMesh.map
  simp only [List.getElem?_map]
  rcases m.geoms[i]? with _ | x
  · rfl
  · simp only [Option.map_some, Option.bind_some, ColGeom.map, List.getElem?_map]
    rcases x.subgeoms[j]? with _ | y
    · rfl
    · simp only [Option.map_some, Option.bind_some, ColSub.map, List.getElem?_map]
      rcases y.lods[k]? with _ | l
      · rfl
      · simp only [Option.map_some, Option.bind_some, ColLod.map, List.getElem?_map]

theorem colWF_translate {F φ : Type} [FArith F] {off : Vec3 F} {m : ColMesh F φ} (h : ColWF m) :
    ColWF (colTranslate off m) := by
  refine ⟨by simpa [colTranslate] using h.count, ?_⟩
  intro g hg
  obtain ⟨g0, hg0, rfl⟩ := List.mem_map.1 hg
  have wg := h.geoms g0 hg0
  refine ⟨by simpa using wg.count, ?_⟩
  intro s hs
  obtain ⟨s0, hs0, rfl⟩ := List.mem_map.1 hs
  have ws := wg.subgeoms s0 hs0
  refine ⟨by simpa using ws.count, ?_⟩
  intro l hl
  obtain ⟨l0, hl0, rfl⟩ := List.mem_map.1 hl
  have wl := ws.lods l0 hl0
  exact { wl with vertices := by simpa using wl.vertices }

theorem colWF_loaded {pl : Plat} {file : Bytes} {m : ColMesh F64 ColFace} (h : loadCol pl file = .ok m) : ColWF m := by
  obtain ⟨r, -, hr, -, -, rfl⟩ := (C59_loads_iff_layout pl file m).1 h
  exact hr.map _ _

theorem ColDoes.wf {m m1 : ColMesh F64 ColFace} {s : ColAct} (h : ColDoes m s m1) (hw : ColWF m) : ColWF m1 := by
  cases h with
  | move => exact colWF_translate hw
  | store _ hl => exact colWF_loaded hl

/-- What an edit does to a vertex. -/
def ColAct.on : ColAct → Vec3 F64 → Vec3 F64
  | .move d, x => x.plus d
  | .store, x => x.map fun x => unpackF (packF x)

theorem ColDoes.vertex {m m1 : ColMesh F64 ColFace} {s : ColAct} (h : ColDoes m s m1) (hw : ColWF m) (i j k n : Nat) :
    m1.vertexAt i j k n = (m.vertexAt i j k n).map s.on := by
  cases h with
  | move => exact vertexAt_translate _ _ _ _ _ _
  | store he hl =>
    have e := (C61_reload_of_save _ m _ hw he).symm.trans hl
    obtain rfl := Except.ok.inj e
    exact vertexAt_map _ _ _ _ _ _ _

theorem ColRuns.vertex {m m1 : ColMesh F64 ColFace} {ss : List ColAct} (h : ColRuns m ss m1) (hw : ColWF m) (i j k n : Nat) :
    m1.vertexAt i j k n = (m.vertexAt i j k n).map fun x => ss.foldl (fun x s => s.on x) x := by
  induction h with
  | nil => simp
  | cons h hs ih =>
    rw [ih (h.wf hw), h.vertex hw, Option.map_map]
    rfl

/-! ## Distance from the exact place -/

variable {ε B δ : ℝ} {x : Vec3 F64} {X : Fin 3 → ℝ}

theorem on_close {s : ColAct} (fd : s.Fine) (hc : Close δ x X) (hX : norm3 X ≤ B)
    (hX' : norm3 (s.act.exact true X) ≤ B) (hδ : δ ≤ B) (hB : B ≤ 2 ^ 126) :
    Close (δ + s.act.error ε B) (s.on x) (s.act.exact true X) := by
  cases s with
  | move d =>
    simp only [ColAct.act, Act.exact, if_true] at hX' ⊢
    have hY : norm3 (x.real.fn + d.real.fn) ≤ 2 * B := by
      have e : x.real.fn + d.real.fn = (x.real.fn - X) + (X + d.real.fn) := by abel
      rw [e]
      refine (norm3_add _ _).trans ?_
      linarith [hc.near]
    have big : 2 * B ≤ 2 ^ 1020 := by
      have : (2 : ℝ) * 2 ^ 126 ≤ 2 ^ 1020 := by
        rw [← pow_succ']
        exact pow_le_pow_right₀ (by norm_num) (by norm_num)
      exact (mul_le_mul_of_nonneg_left hB (by norm_num)).trans this
    have c0 := add_close hc.fin.1 fd.1 ((comp_norm3 _ 0).trans hY) big
    have c1 := add_close hc.fin.2.1 fd.2.1 ((comp_norm3 _ 1).trans hY) big
    have c2 := add_close hc.fin.2.2 fd.2.2 ((comp_norm3 _ 2).trans hY) big
    have hcl := close_of (Y := x.real.fn + d.real.fn) (Z := X + d.real.fn) (δ := δ)
      (β := 2 * B * 2 ^ (-53 : ℤ) + 2 ^ (-1075 : ℤ))
      (x' := ⟨F64.add x.x d.x, F64.add x.y d.y, F64.add x.z d.z⟩) ⟨c0.1, c1.1, c2.1⟩
      (fun i => by fin_cases i; exacts [c0.2, c1.2, c2.2])
      (by rw [add_sub_add_right_eq_sub]; exact hc.near)
    have e2 : δ + 2 * (2 * B * 2 ^ (-53 : ℤ) + 2 ^ (-1075 : ℤ)) = δ + (Act.move d).error ε B := by
      unfold Act.error
      rw [show (-51 : ℤ) = -53 + 2 by norm_num, show (-1074 : ℤ) = -1075 + 1 by norm_num,
        zpow_add₀ (by norm_num : (2 : ℝ) ≠ 0), zpow_add₀ (by norm_num : (2 : ℝ) ≠ 0)]
      ring
    rw [← e2]
    exact hcl
  | store =>
    have hlen : norm3 x.real.fn ≤ 2 * B := by
      have := hc.len hX
      linarith
    have big : 2 * B ≤ 2 ^ 127 := by
      have : (2 : ℝ) * 2 ^ 126 ≤ 2 ^ 127 := by
        rw [← pow_succ']
      exact (mul_le_mul_of_nonneg_left hB (by norm_num)).trans this
    have c0 := stored_close hc.fin.1 ((comp_norm3 _ 0).trans hlen) big
    have c1 := stored_close hc.fin.2.1 ((comp_norm3 _ 1).trans hlen) big
    have c2 := stored_close hc.fin.2.2 ((comp_norm3 _ 2).trans hlen) big
    have hcl := close_of (Y := x.real.fn) (Z := X) (δ := δ) (x' := x.map fun x => unpackF (packF x))
      (β := 2 * B * 2 ^ (-24 : ℤ) + 2 ^ (-150 : ℤ)) ⟨c0.1, c1.1, c2.1⟩
      (fun i => by fin_cases i; exacts [c0.2, c1.2, c2.2]) hc.near
    have e2 : δ + 2 * (2 * B * 2 ^ (-24 : ℤ) + 2 ^ (-150 : ℤ)) = δ + Act.store.error ε B := by
      unfold Act.error
      rw [show (-22 : ℤ) = -24 + 2 by norm_num, show (-149 : ℤ) = -150 + 1 by norm_num,
        zpow_add₀ (by norm_num : (2 : ℝ) ≠ 0), zpow_add₀ (by norm_num : (2 : ℝ) ≠ 0)]
      ring
    show Close (δ + Act.store.error ε B) _ X
    rw [← e2]
    exact hcl

theorem col_error_nonneg (s : ColAct) (hB : 0 ≤ B) : 0 ≤ s.act.error ε B := by
  cases s <;> (unfold ColAct.act Act.error; positivity)

theorem all_close {ss : List ColAct} (fine : ∀ s ∈ ss, s.Fine) (hc : Close δ x X)
    (hX : ∀ pre, pre <+: ss → norm3 (exactAll true (pre.map ColAct.act) X) ≤ B)
    (hδ : δ + (ss.map fun s => s.act.error ε B).sum ≤ B) (hB : B ≤ 2 ^ 126) :
    Close (δ + (ss.map fun s => s.act.error ε B).sum) (ss.foldl (fun x s => s.on x) x)
      (exactAll true (ss.map ColAct.act) X) := by
  induction ss generalizing x X δ with
  | nil => simpa [exactAll] using hc
  | cons s ss ih =>
    have hX0 : norm3 X ≤ B := hX [] List.nil_prefix
    have hB0 : 0 ≤ B := (norm3_nonneg _).trans hX0
    have hX1 : norm3 (s.act.exact true X) ≤ B := hX [s] ⟨ss, rfl⟩
    have hsum : 0 ≤ (ss.map fun s => s.act.error ε B).sum := by
      refine List.sum_nonneg ?_
      intro r hr
      obtain ⟨s, -, rfl⟩ := List.mem_map.1 hr
      exact col_error_nonneg s hB0
    have hs := col_error_nonneg (ε := ε) s hB0
    simp only [List.map_cons, List.sum_cons] at hδ
    have h1 := on_close (ε := ε) (fine s List.mem_cons_self) hc hX0 hX1 (by linarith) hB
    have h2 := ih (fun t ht => fine t (List.mem_cons_of_mem _ ht)) h1
      (fun pre hp => hX (s :: pre) (by rw [List.cons_prefix_cons]; exact ⟨rfl, hp⟩)) (by linarith)
    simp only [List.map_cons, List.sum_cons, List.foldl_cons]
    rw [← add_assoc]
    exact h2

/-! ## The same edits of a visible mesh -/

/-- What an edit that is no turn does to a position of a visible mesh. -/
theorem Does.position [Libm F64] {vs o v : Nat} {m m1 : Mesh F64} {p : VAttr} {s : Act} (h : Does m s m1)
    (noTurn : ∀ y q r, s ≠ .turn y q r) (ord : Orderly vs m) (first : FirstPosition m.vattrs p)
    (ho : StartsAt m.vertformat p o) (hx : vec3At m.vertices (v * vs + o) = some x) :
    vec3At m1.vertices (v * vs + o) = some ((s.col.map fun t => t.on x).getD x) := by
  cases h with
  | turn h => exact absurd rfl (noTurn _ _ _)
  | update h =>
    obtain ⟨gs, he, -⟩ := update_bounded m
    rw [h] at he
    rw [show m1 = _ from he]
    exact hx
  | store he hl =>
    have e1 := (C02_reload_of_export _ m _ ord.wf he).symm.trans hl
    obtain rfl := Except.ok.inj e1
    show vec3At (m.vertices.map _) _ = _
    rw [vec3At_map, hx]
    rfl
  | @move _ d h =>
    obtain ⟨pin, pv⟩ : p ∈ m.vattrs ∧ VectorAttr p := by
      obtain ⟨pre, post, e, h1, -⟩ := first
      exact ⟨by rw [e]; simp, h1.2, .inl h1.1⟩
    obtain ⟨-, q, hq, hfit⟩ := ord.vectors p pin pv
    obtain rfl := startsAt_unique ho hq
    obtain ⟨l, hl, -, hmv⟩ := C22_translate_moves_positions_only (d := [d.x, d.y, d.z]) ord.verts first hq hfit
    have e1 := (Prod.mk.inj (h.symm.trans hl)).1
    obtain ⟨h0, h1, h2⟩ := vec3At_iff.1 hx
    rw [e1]
    have m0 := hmv v o x.x (by omega) h0
    have m1 := hmv v (o + 1) x.y (by omega) h1
    have m2 := hmv v (o + 2) x.z (by omega) h2
    exact vec3At_iff.2 ⟨m0.1 _ le_rfl (by simp), m1.1 _ (by omega) (by simp), m2.1 _ (by omega) (by simp)⟩

theorem Runs.position [Libm F64] {vs o v : Nat} {m m1 : Mesh F64} {p : VAttr} {ss : List Act} (h : Runs m ss m1)
    (noTurn : ∀ y q r, Act.turn y q r ∉ ss) (ord : Orderly vs m) (first : FirstPosition m.vattrs p)
    (ho : StartsAt m.vertformat p o) (hx : vec3At m.vertices (v * vs + o) = some x) :
    vec3At m1.vertices (v * vs + o) = some ((ss.filterMap Act.col).foldl (fun x s => s.on x) x) := by
  induction h generalizing x with
  | nil => exact hx
  | @cons m m1 m2 s ss h hs ih =>
    obtain ⟨ord1, same⟩ := step_kept ord h.step
    have h1 := h.position (fun y q r e => noTurn y q r (by rw [e]; exact List.mem_cons_self)) ord first ho hx
    have h2 := ih (fun y q r hm => noTurn y q r (List.mem_cons_of_mem _ hm)) ord1
      (by rw [same.vattrs]; exact first) (by rw [same.vertformat]; exact ho) h1
    rw [h2, List.filterMap_cons]
    cases s.col <;> rfl

end Bf2
