import Verif.CentreLemmas
import Verif.Props.BoundsDrift

/-!
# C187: centring a lod in doubles

C117 says what moving a mesh by the negated `get_lod_center_offset` does in exact arithmetic. In doubles the offset of
the lod after the move is the exact one up to rounding.
-/

namespace Bf2

noncomputable section

/-- **C187.** `get_lod_center_offset`, `translate` by the negated result and `get_lod_center_offset` again succeed, and
along an axis on which the vertices of the lod are from `lo` to `hi`, the second result is `offsetLeft lo hi` up to
`2 ^ -47` of the size of the mesh. -/
theorem C187_centring {vs o : Nat} {A : ℝ} {m : Mesh F64} {p : VAttr} {geomId lodId : Int} {j k : Nat}
    {g : Geom F64} {l : Lod F64} (ord : Orderly vs m) (apart : m.vattrs.Pairwise (Apart m.vertformat))
    (bounded : Bounded m) (first : FirstPosition m.vattrs p) (mem : p ∈ m.vattrs) (vector : VectorAttr p)
    (hpos : PositionAt vs o m p) (known : AttrsKnown m)
    (hj : Names m.geoms.length geomId j) (hg : m.geoms[j]? = some g)
    (hk : Names g.lods.length lodId k) (hl : g.lods[k]? = some l)
    (size : ∀ v x, vec3At m.vertices (v * vs + o) = some x → x.Finite ∧ ∀ i, |x.real.fn i| ≤ A)
    (small : 2 ^ (-1000 : ℤ) ≤ A) (big : A ≤ 2 ^ 120) :
    ∃ (mu m1 m2 : Mesh F64) (c c' : Vec3 F64), getLodCenterOffset m geomId lodId true = (mu, .ok c) ∧
      translate mu [c.x.negate, c.y.negate, c.z.negate] = (m1, none) ∧
      getLodCenterOffset m1 geomId lodId true = (m2, .ok c') ∧
      ∀ i lo hi, Spans (fun x => ∃ a ∈ l.materials, PosOf vs o m a x) i lo hi →
        |((c'.comp i).value : ℝ) - offsetLeft lo hi| ≤ 2 ^ (-47 : ℤ) * A := by
  let _ : Libm F64 := quarterTurn
  have A0 : 0 < A := lt_of_lt_of_le (by positivity) small
  have tiny : 4 * (2 : ℝ) ^ (-1074 : ℤ) ≤ 2 ^ (-51 : ℤ) * A := by
    have e : (2 : ℝ) ^ (-1074 : ℤ) = 2 ^ (-1000 : ℤ) * 2 ^ (-74 : ℤ) := by
      rw [← zpow_add₀ (by norm_num)]; norm_num
    have h1 : (2 : ℝ) ^ (-74 : ℤ) * 4 ≤ 2 ^ (-51 : ℤ) := by norm_num
    have h2 : (0 : ℝ) ≤ 2 ^ (-51 : ℤ) := by positivity
    rw [e]
    calc 4 * ((2 : ℝ) ^ (-1000 : ℤ) * 2 ^ (-74 : ℤ)) = (2 ^ (-74 : ℤ) * 4) * 2 ^ (-1000 : ℤ) := by ring
      _ ≤ 2 ^ (-51 : ℤ) * 2 ^ (-1000 : ℤ) := mul_le_mul_of_nonneg_right h1 (by positivity)
      _ ≤ 2 ^ (-51 : ℤ) * A := mul_le_mul_of_nonneg_left small h2
  have tiny0 : (0 : ℝ) ≤ 2 ^ (-1074 : ℤ) := by positivity
  have step : (2 : ℝ) ^ (-51 : ℤ) * A ≤ A / 1024 := by
    have : (2 : ℝ) ^ (-51 : ℤ) ≤ 1 / 1024 := by norm_num
    calc (2 : ℝ) ^ (-51 : ℤ) * A ≤ 1 / 1024 * A := mul_le_mul_of_nonneg_right this A0.le
      _ = A / 1024 := by ring
  clear small
  obtain ⟨t, ht⟩ : ∃ t : ℝ, t = 2 ^ (-1074 : ℤ) ∧ True := ⟨_, rfl, trivial⟩
  rw [← ht.1] at tiny tiny0
  obtain ⟨u, hu51⟩ : ∃ u : ℝ, u = 2 ^ (-51 : ℤ) * A ∧ True := ⟨_, rfl, trivial⟩
  rw [← hu51.1] at tiny step
  -- the first update
  have hu : updateBoundaries m = ((updateBoundaries m).1, none) :=
    Prod.ext rfl (C45_update_succeeds ord.verts.size hpos known ord.verts.inside)
  obtain ⟨gs, he, -⟩ := update_bounded m
  obtain ⟨g', l', hg', hl', -⟩ := C49_place_kept hu hg hl
  generalize (updateBoundaries m).1 = mu at *
  have B0 := C186_bounds (ε := 0) (B := 2 * A) ord apart bounded first mem vector hpos Runs.nil hu (by norm_num)
    (fun _ h => absurd h List.not_mem_nil) (fun v x hx => (size v x hx).1)
    (fun v x hx pre hpre => by
      rw [List.prefix_nil.1 hpre]
      exact norm3_le (size v x hx).2) (by simp only [List.map_nil, List.sum_nil]; linarith)
    ((show 2 * A ≤ 2 * 2 ^ 120 by linarith).trans (by norm_num))
  simp only [List.map_nil, List.sum_nil] at B0
  obtain ⟨g1, hg1, B1⟩ := forall₂_getElem? B0 hg
  obtain rfl : g' = g1 := Option.some.inj (hg'.symm.trans hg1)
  obtain ⟨l1, hl1, B2, -⟩ := forall₂_getElem? B1 hl
  obtain rfl : l' = l1 := Option.some.inj (hl'.symm.trans hl1)
  have hcen := C49_center_updated hu hj hg hk hg' hl'
  have sizeP : ∀ x, (∃ a ∈ l.materials, PosOf vs o m a x) → ∀ i, |((x.comp i).value : ℝ)| ≤ A := by
    rintro x ⟨a, -, v, -, hx⟩ i
    have := (size _ x hx).2 i
    fin_cases i <;> exact this
  have bnd : ∀ b : F64, ∀ i, (b = F64.zero ∨ ∃ x, (∃ a ∈ l.materials, PosOf vs o m a x) ∧
      |(b.value : ℝ) - exactAll true [] x.real.fn i| ≤ 0) → |(b.value : ℝ)| ≤ A := by
    rintro b i (rfl | ⟨x, hx, h⟩)
    · rw [zero_value, Rat.cast_zero, abs_zero]; exact A0.le
    · have e : (b.value : ℝ) = (x.comp i).value := by
        have := abs_nonpos_iff.1 h
        rw [sub_eq_zero] at this
        rw [this]
        fin_cases i <;> rfl
      rw [e]; exact sizeP x hx i
  have big2 : A ≤ 2 ^ 200 := big.trans (by norm_num)
  have mids : ∀ i, (F64.half (F64.add (l'.min.comp i) (l'.max.comp i))).isFin = true ∧
      |((F64.half (F64.add (l'.min.comp i) (l'.max.comp i))).value : ℝ) -
        ((l'.min.comp i).value + (l'.max.comp i).value) / 2| ≤ u + t := fun i =>
    ht.1 ▸ hu51.1 ▸ mid_near (by fin_cases i; exacts [B2.finite.1.1, B2.finite.1.2.1, B2.finite.1.2.2])
      (by fin_cases i; exacts [B2.finite.2.1, B2.finite.2.2.1, B2.finite.2.2.2])
      (bnd _ i (B2.reachLow i)) (bnd _ i (B2.reachHigh i)) big2
  generalize hc : (⟨FArith.half (FArith.add l'.min.x l'.max.x), FArith.half (FArith.add l'.min.y l'.max.y),
       FArith.half (FArith.add l'.min.z l'.max.z)⟩ : Vec3 F64) = c at hcen
  have cmid : ∀ i, (c.comp i).isFin = true ∧ |((c.comp i).value : ℝ) -
        ((l'.min.comp i).value + (l'.max.comp i).value) / 2| ≤ u + t := by
    intro i
    rw [← hc]
    have := mids i
    fin_cases i <;> exact this
  have csize : ∀ i, |((c.comp i).value : ℝ)| ≤ 2 * A := by
    intro i
    have h1 := abs_sub_abs_le_abs_sub ((c.comp i).value : ℝ) (((l'.min.comp i).value + (l'.max.comp i).value) / 2)
    have h2 := (cmid i).2
    have h3 := abs_add_le ((l'.min.comp i).value : ℝ) (l'.max.comp i).value
    have h4 := bnd _ i (B2.reachLow i)
    have h5 := bnd _ i (B2.reachHigh i)
    rw [abs_div, abs_of_pos (show (0 : ℝ) < 2 by norm_num)] at h1
    linarith
  -- the move
  have htu := update_tiledVerts ord.verts
  rw [hu] at htu
  have hattr : mu.vattrs = m.vattrs := by rw [he]
  have hfmt : mu.vertformat = m.vertformat := by rw [he]
  have htr : translate mu [c.x.negate, c.y.negate, c.z.negate] = _ :=
    translate_tiled (o := o) htu (by rw [hattr]; exact first) (by rw [hfmt]; exact hpos.start) hpos.fits
  generalize hm1 : ({ mu with vertices := movedAll vs o [c.x.negate, c.y.negate, c.z.negate] mu.vertices } : Mesh F64)
    = m1 at htr
  have gm1 : m1.geoms = mu.geoms := by rw [← hm1]
  have runs : Runs m [.update, .move ⟨c.x.negate, c.y.negate, c.z.negate⟩] m1 :=
    .cons (.update hu) (.cons (.move htr) .nil)
  obtain ⟨ord1, ea, ef⟩ := runs_kept runs ord
  have hpos1 : PositionAt vs o m1 p := ⟨by rw [ea]; exact hpos.last, by rw [ef]; exact hpos.start, hpos.wide, hpos.fits⟩
  have known1 : AttrsKnown m1 := by rw [← hm1, he]; exact known
  have hu1 : updateBoundaries m1 = ((updateBoundaries m1).1, none) :=
    Prod.ext rfl (C45_update_succeeds ord1.verts.size hpos1 known1 ord1.verts.inside)
  have hj1 : Names m1.geoms.length geomId j := by
    rw [gm1, B0.length_eq.symm]; exact hj
  have hk1 : Names g'.lods.length lodId k := by
    rw [← B1.length_eq]; exact hk
  have hg1' : m1.geoms[j]? = some g' := by rw [gm1]; exact hg'
  obtain ⟨g2, l2, hg2, hl2, -⟩ := C49_place_kept hu1 hg1' hl'
  generalize (updateBoundaries m1).1 = m2 at *
  have hcen1 := C49_center_updated hu1 hj1 hg1' hk1 hg2 hl2
  refine ⟨mu, m1, m2, c, _, hcen, htr, hcen1, fun i lo hi s => ?_⟩
  -- the second bounds
  have dreal : ∀ i, (⟨c.x.negate, c.y.negate, c.z.negate⟩ : Vec3 F64).real.fn i = -((c.comp i).value : ℝ) := by
    intro i
    fin_cases i <;> simp [Vec3.real, Vec3.fn, negate_value, Vec3.comp]
  have dn : norm3 (⟨c.x.negate, c.y.negate, c.z.negate⟩ : Vec3 F64).real.fn ≤ 2 * (2 * A) :=
    norm3_le fun i => by rw [dreal, abs_neg]; exact csize i
  have Esum : ([Act.update, .move ⟨c.x.negate, c.y.negate, c.z.negate⟩].map (Act.error 0 (8 * A))).sum =
      8 * u + t := by
    simp only [List.map_cons, List.map_nil, List.sum_cons, List.sum_nil, Act.error, ht.1, hu51.1]
    ring
  have Ele : 8 * u + t ≤ A := by
    linarith
  have C0 := C186_bounds (ε := 0) (B := 8 * A) ord apart bounded first mem vector hpos runs hu1 (by norm_num)
    (by
      intro s hs
      simp only [List.mem_cons, List.not_mem_nil, or_false] at hs
      rcases hs with rfl | rfl
      · trivial
      · exact ⟨(cmid 0).1, (cmid 1).1, (cmid 2).1⟩) (fun v x hx => (size v x hx).1)
    (fun v x hx pre hpre => by
      have hx2 := norm3_le (size v x hx).2
      have pres : pre = [] ∨ pre = [Act.update] ∨ pre = [.update, .move ⟨c.x.negate, c.y.negate, c.z.negate⟩] := by
        have := (List.mem_inits pre _).2 hpre
        simpa using this
      rcases pres with rfl | rfl | rfl
      · exact hx2.trans (by linarith)
      · exact hx2.trans (by linarith)
      · exact (norm3_add x.real.fn _).trans (by linarith))
    (by rw [Esum]; linarith) ((show 8 * A ≤ 8 * 2 ^ 120 by linarith).trans (by norm_num))
  rw [Esum] at C0
  obtain ⟨g3, hg3, C1⟩ := forall₂_getElem? C0 hg
  obtain rfl : g2 = g3 := Option.some.inj (hg2.symm.trans hg3)
  obtain ⟨l3, hl3, C2, -⟩ := forall₂_getElem? C1 hl
  obtain rfl : l2 = l3 := Option.some.inj (hl2.symm.trans hl3)
  have E0 : 0 ≤ 8 * u + t := by linarith
  -- both pairs of bounds
  obtain ⟨p1, p2⟩ := B2.spans le_rfl (t := 0) s fun x => by
    rw [add_zero]; fin_cases i <;> rfl
  obtain ⟨q1, q2⟩ := C2.spans E0 (t := -((c.comp i).value : ℝ)) s fun x => by
    rw [← dreal]
    fin_cases i <;> rfl
  rw [add_zero] at p1 p2
  have p1 := sub_eq_zero.1 (abs_nonpos_iff.1 p1)
  have p2 := sub_eq_zero.1 (abs_nonpos_iff.1 p2)
  have hcm := (cmid i).2
  rw [p1, p2] at hcm
  have hneg : |(-((c.comp i).value : ℝ)) - -((min 0 lo + max 0 hi) / 2)| ≤ u + t := by
    rw [neg_sub_neg, abs_sub_comm]; exact hcm
  have r1 := near_min (a := lo) hneg
  have r2 := near_max (a := hi) hneg
  obtain ⟨xl, hxl, exl⟩ := s.low
  obtain ⟨xh, hxh, exh⟩ := s.high
  have sl := sizeP xl hxl i
  have sh := sizeP xh hxh i
  rw [exl] at sl
  rw [exh] at sh
  have le : lo ≤ hi := by rw [← exl]; exact (s.between xl hxl).2
  have d1 := bnd _ i (B2.reachLow i)
  have d2 := bnd _ i (B2.reachHigh i)
  rw [p1] at d1
  rw [p2] at d2
  have mm : |(min 0 lo + max 0 hi) / 2| ≤ A := by
    rw [abs_div, abs_of_pos (show (0 : ℝ) < 2 by norm_num)]
    linarith [abs_add_le (min 0 lo) (max 0 hi)]
  have z1 : |min 0 (lo + -((min 0 lo + max 0 hi) / 2))| ≤ 2 * A := by
    rw [abs_le] at sl mm ⊢
    constructor
    · exact le_min (by linarith) (by linarith)
    · exact (min_le_left _ _).trans (by linarith)
  have z2 : |max 0 (hi + -((min 0 lo + max 0 hi) / 2))| ≤ 2 * A := by
    rw [abs_le] at sh mm ⊢
    constructor
    · exact le_trans (by linarith) (le_max_left _ _)
    · exact max_le (by linarith) (by linarith)
  have left := offsetLeft_eq le
  rw [sub_eq_add_neg, sub_eq_add_neg] at left
  have w1 : |((l2.min.comp i).value : ℝ)| ≤ 4 * A := by
    rw [abs_le] at *
    constructor <;> linarith
  have w2 : |((l2.max.comp i).value : ℝ)| ≤ 4 * A := by
    rw [abs_le] at *
    constructor <;> linarith
  obtain ⟨-, last⟩ := mid_near (a := l2.min.comp i) (b := l2.max.comp i)
    (by fin_cases i; exacts [C2.finite.1.1, C2.finite.1.2.1, C2.finite.1.2.2])
    (by fin_cases i; exacts [C2.finite.2.1, C2.finite.2.2.1, C2.finite.2.2.2]) w1 w2
    ((show 4 * A ≤ 4 * 2 ^ 120 by linarith).trans (by norm_num))
  have e : (⟨FArith.half (FArith.add l2.min.x l2.max.x), FArith.half (FArith.add l2.min.y l2.max.y),
       FArith.half (FArith.add l2.min.z l2.max.z)⟩ : Vec3 F64).comp i =
      F64.half (F64.add (l2.min.comp i) (l2.max.comp i)) := by fin_cases i <;> rfl
  rw [e, ← left]
  rw [← ht.1] at last
  rw [mul_left_comm, ← hu51.1] at last
  have e47 : (2 : ℝ) ^ (-47 : ℤ) * A = 16 * u := by
    rw [hu51.1, ← mul_assoc]; norm_num
  rw [e47]
  clear step Ele Esum E0 e47 C0 B0
  rw [abs_le] at q1 q2 last r1 r2 ⊢
  constructor <;> linarith

/-- **C187.** A lod with a vertex on either side of the origin, or at it, is centred along the axis, up to rounding. -/
theorem C187_around {lo hi : ℝ} (h1 : lo ≤ 0) (h2 : 0 ≤ hi) : offsetLeft lo hi = 0 := by
  unfold offsetLeft
  rw [if_neg (not_lt.2 h1), if_neg (not_lt.2 h2)]

/-- **C187.** A lod on one side of the origin stays there. -/
theorem C187_aside {lo hi : ℝ} (le : lo ≤ hi) (h : 0 < lo ∨ hi < 0) : offsetLeft lo hi ≠ 0 := by
  unfold offsetLeft
  rcases h with h | h
  · rw [if_pos h]
    have : 0 < min lo (hi / 2) := lt_min h (by linarith)
    linarith
  · rw [if_neg (by linarith), if_pos h]
    have : max hi (lo / 2) < 0 := max_lt h (by linarith)
    linarith

/-! ## The cases are met -/

/-- Its second geom has the second and third vertex. -/
theorem second_spans {m : Mesh F64} {x y : Vec3 F64} {l : Lod F64} (hl : (boundedGeom [(1, 2, 3, 3)]).lods[0]? = some l)
    (h1 : vec3At m.vertices 8 = some x) (h2 : vec3At m.vertices 16 = some y) (i : Fin 3)
    (le : (x.comp i).value ≤ (y.comp i).value) :
    Spans (fun z => ∃ a ∈ l.materials, PosOf 8 0 m a z) i (x.comp i).value (y.comp i).value := by
  obtain rfl := Option.some.inj hl
  have le : ((x.comp i).value : ℝ) ≤ (y.comp i).value := by exact_mod_cast le
  refine ⟨?_, ⟨x, ⟨_, List.mem_singleton.2 rfl, 0, by decide, h1⟩, rfl⟩, ⟨y, ⟨_, List.mem_singleton.2 rfl, 1, by decide, h2⟩, rfl⟩⟩
  rintro z ⟨a, ha, v, hv, hz⟩
  obtain rfl := List.mem_singleton.1 ha
  have hv : (v : Int) < 2 := hv
  obtain rfl | rfl : v = 0 ∨ v = 1 := by omega
  · obtain rfl := Option.some.inj (h1.symm.trans hz)
    exact ⟨le_rfl, le⟩
  · obtain rfl := Option.some.inj (h2.symm.trans hz)
    exact ⟨le, le_rfl⟩

/-- The second lod of the box, with vertices (8, 9, 10) and (16, 17, 18): its offset is (8, 8.5, 9) at first, and
nearly (4, 4.25, 4.5) after the move. -/
example : ∃ (mu m1 m2 : Mesh F64) (c c' : Vec3 F64), getLodCenterOffset plainBox 1 0 true = (mu, .ok c) ∧
    translate mu [c.x.negate, c.y.negate, c.z.negate] = (m1, none) ∧
    getLodCenterOffset m1 1 0 true = (m2, .ok c') ∧ |(c'.y.value : ℝ) - 17 / 4| ≤ 2 ^ (-47 : ℤ) * 18 := by
  obtain ⟨mu, m1, m2, c, c', h1, h2, h3, h⟩ := C187_centring (A := 18) (geomId := 1) (lodId := 0) (j := 1) (k := 0)
    plainBox_orderly plainBox_apart ⟨by decide +kernel, by decide +kernel⟩ plainBox_first (by decide +kernel) (by decide)
    plainBox_position plainBox_usable.known ⟨by decide, by decide⟩ rfl ⟨by decide, by decide⟩ rfl
    (fun v x hx => plainBox_small hx)
    ((zpow_le_one_of_nonpos₀ (by norm_num) (by norm_num)).trans (by norm_num)) (by norm_num)
  refine ⟨mu, m1, m2, c, c', h1, h2, h3, ?_⟩
  have := h 1 _ _ (second_spans rfl (x := ⟨flt 8, flt 9, flt 10⟩) (y := ⟨flt 16, flt 17, flt 18⟩) (by decide +kernel)
    (by decide +kernel) 1 (by decide +kernel))
  have e1 : ((⟨flt 8, flt 9, flt 10⟩ : Vec3 F64).comp 1).value = 9 := by decide +kernel
  have e2 : ((⟨flt 16, flt 17, flt 18⟩ : Vec3 F64).comp 1).value = 17 := by decide +kernel
  rw [e1, e2] at this
  have e3 : offsetLeft ((9 : ℚ) : ℝ) ((17 : ℚ) : ℝ) = 17 / 4 := by
    unfold offsetLeft
    norm_num
  rw [e3] at this
  exact this

/-- The box around the origin. -/
def midBox : Mesh F64 :=
  (translate plainBox [F64.ofRat true (-12), F64.ofRat true (-12), F64.ofRat true (-12)]).1

theorem midBox_small {v : Nat} {x : Vec3 F64} (hx : vec3At midBox.vertices (v * 8 + 0) = some x) :
    x.Finite ∧ ∀ c, |x.real.fn c| ≤ 12 := by
  have all : ∀ v ∈ List.range 3, ∀ i ∈ [0, 1, 2], ∀ x ∈ midBox.vertices[v * 8 + i]?,
      |x.value| ≤ 12 ∧ x.isFin = true := by decide +kernel
  have hl : midBox.vertices.length = 24 := by decide +kernel
  have hv : v < 3 := by
    have := vec3At_inside hx
    omega
  obtain ⟨h0, h1, h2⟩ := vec3At_iff.1 hx
  have a0 := all v (List.mem_range.2 hv) 0 (by simp) _ h0
  have a1 := all v (List.mem_range.2 hv) 1 (by simp) _ h1
  have a2 := all v (List.mem_range.2 hv) 2 (by simp) _ h2
  have b0 : |(x.x.value : ℝ)| ≤ 12 := by exact_mod_cast a0.1
  have b1 : |(x.y.value : ℝ)| ≤ 12 := by exact_mod_cast a1.1
  have b2 : |(x.z.value : ℝ)| ≤ 12 := by exact_mod_cast a2.1
  refine ⟨⟨a0.2, a1.2, a2.2⟩, fun c => ?_⟩
  fin_cases c
  · exact b0
  · exact b1
  · exact b2

/-- Its second lod has vertices (-4, -3, -2) and (4, 5, 6), and is centred by the move. -/
example : ∃ (mu m1 m2 : Mesh F64) (c c' : Vec3 F64), getLodCenterOffset midBox (-1) 0 true = (mu, .ok c) ∧
    translate mu [c.x.negate, c.y.negate, c.z.negate] = (m1, none) ∧
    getLodCenterOffset m1 (-1) 0 true = (m2, .ok c') ∧ |(c'.z.value : ℝ)| ≤ 2 ^ (-47 : ℤ) * 12 := by
  let _ : Libm F64 := quarterTurn
  have runs : Runs plainBox [.move ⟨F64.ofRat true (-12), F64.ofRat true (-12), F64.ofRat true (-12)⟩] midBox :=
    .cons (.move (Prod.ext rfl (by decide +kernel))) .nil
  obtain ⟨ord, ea, ef⟩ := runs_kept runs plainBox_orderly
  obtain ⟨mu, m1, m2, c, c', h1, h2, h3, h⟩ := C187_centring (A := 12) (geomId := -1) (lodId := 0) (j := 1) (k := 0)
    (p := ⟨0, 0, 2, 0⟩) (o := 0) (g := boundedGeom [(1, 2, 3, 3)])
    ord (by rw [ea, ef]; exact plainBox_apart) ⟨by decide +kernel, by decide +kernel⟩ (by rw [ea]; exact plainBox_first)
    (by decide +kernel) (by decide)
    ⟨by rw [ea]; exact plainBox_position.last, by rw [ef]; exact plainBox_position.start, plainBox_position.wide,
      plainBox_position.fits⟩ (by
        have := plainBox_usable.known
        unfold AttrsKnown at *
        rw [ea, ef]
        exact this) ⟨by decide +kernel, by decide +kernel⟩ (by decide +kernel) ⟨by decide, by decide⟩ rfl
    (fun v x hx => midBox_small hx)
    ((zpow_le_one_of_nonpos₀ (by norm_num) (by norm_num)).trans (by norm_num)) (by norm_num)
  refine ⟨mu, m1, m2, c, c', h1, h2, h3, ?_⟩
  have := h 2 _ _ (second_spans rfl
    (x := ⟨F64.ofRat true (-4), F64.ofRat true (-3), F64.ofRat true (-2)⟩) (y := ⟨flt 4, flt 5, flt 6⟩) (by decide +kernel)
    (by decide +kernel) 2 (by decide +kernel))
  have e1 : ((⟨F64.ofRat true (-4), F64.ofRat true (-3), F64.ofRat true (-2)⟩ : Vec3 F64).comp 2).value = -2 := by
    decide +kernel
  have e2 : ((⟨flt 4, flt 5, flt 6⟩ : Vec3 F64).comp 2).value = 6 := by decide +kernel
  rw [e1, e2, C187_around (by norm_num) (by norm_num), sub_zero] at this
  exact this

end

end Bf2
