import Verif.OldJoinLemmas
import Verif.Props.OldRotate
import Verif.Props.OldMerge
import Verif.Props.OldHistory

/-!
# Two pieces of a road joined (C132)
-/

namespace Bf2

section
variable {F : Type} [FArith F] [LawfulLt F] [Libm F] [FDiv F]

/-- **C132.** For given rotations there are two maps of vectors such that, on every mesh object in good
order that is static and has a lod, the program of `test_can_merge_statics_from_GPO` succeeds.  Every
material of the result has its vertices turned by the first map, and then the same vertices turned by
the second and moved by the difference of the positions, all moved by `-c`; and its indices twice, the
second time counted from its second half.  `c` is the middle of the bounds of the first lod, grown to the
vertices of the first piece and then to those of both. -/
theorem C132_joined (y1 p1 r1 y2 p2 r2 : F) (rest1 rest2 : List F)
    (defined : ∀ a ∈ [y1, p1, r1, y2, p2, r2], (Libm.cos (Libm.radians a)).isSome ∧
      (Libm.sin (Libm.radians a)).isSome) :
    ∃ R1 R2 : Vec3 F → Vec3 F, ∀ (pos1 pos2 : Vec3 F) (vs oP oN oT : Nat) (m : OldMesh F)
      (g : OldGeom F) (l : OldLod F), OldOrderly vs m → m.kind.isStatic = true →
      Float3At m.vertformat m.vattrs 0 oP → Float3At m.vertformat m.vattrs 3 oN →
      Float3At m.vertformat m.vattrs 6 oT → 2 * m.vertices.length ≤ 2 ^ 53 →
      m.geoms[0]? = some g → g.lods[0]? = some l →
      ∃ m' c mn1 mx1 mn mx,
        joinStatics pos1 pos2 (y1 :: p1 :: r1 :: rest1) (y2 :: p2 :: r2 :: rest2) m = (m', none) ∧
        OldOrderly vs m' ∧ OldSameFormat m m' ∧ m'.mats.length = m.mats.length ∧
        (∀ (i : Nat) a, m.mats[i]? = some a → ∃ a', m'.mats[i]? = some a' ∧
          a'.vnum = a.vnum + a.vnum ∧ m'.idata a' = m.idata a ++ (m.idata a).map (· + a.vnum) ∧
          (∀ j : Nat, (j : Int) < a.vnum → ∃ w1 w2,
            TurnedVert R1 [oP, oN, oT] (vert vs m.vertices (a.vstart.toNat + j)) w1 ∧
            TurnedVert R2 [oP, oN, oT] (vert vs m.vertices (a.vstart.toNat + j)) w2 ∧
            vert vs m'.vertices (a'.vstart.toNat + j) = movedVert oP c.neg w1 ∧
            vert vs m'.vertices (a'.vstart.toNat + (a.vnum.toNat + j)) =
              movedVert oP c.neg (movedVert oP (pos2.sub pos1) w2))) ∧
        c = boxMiddle mn mx ∧
        BoxGrown l.min l.max mn1 mx1
          (fun x => ∃ a ∈ l.materials, ∃ v, OldPosOf vs oP m a v ∧ x = R1 v) ∧
        BoxGrown mn1 mx1 mn mx
          (fun x => ∃ a ∈ l.materials, ∃ v, OldPosOf vs oP m a v ∧
            (x = R1 v ∨ x = shifted (pos2.sub pos1) (R2 v))) := by
  obtain ⟨R1, hR1⟩ := C99_one_map y1 p1 r1 rest1 (fun a ha => defined a (by
    simp only [List.mem_cons, List.not_mem_nil, or_false] at ha ⊢; tauto))
  obtain ⟨R2, hR2⟩ := C99_one_map y2 p2 r2 rest2 (fun a ha => defined a (by
    simp only [List.mem_cons, List.not_mem_nil, or_false] at ha ⊢; tauto))
  exact ⟨R1, R2, fun pos1 pos2 vs oP oN oT m g l order static h0 h3 h6 small hg hl =>
    joined_of hR1 hR2 pos1 pos2 order static h0 h3 h6 small hg hl⟩

end

/-- **C132.** In exact arithmetic the two maps are the rotation matrices of the angles in degrees; and if
the bounds of the first lod, as loaded, do not stick out of the joined pieces, then the pieces are
centred: along every axis the positions in the first lod reach as far up as down. -/
theorem C132_centred (y1 p1 r1 y2 p2 r2 : ℝ) (R1 R2 : Vec3 ℝ → Vec3 ℝ)
    (hR1 : ∀ v, (R1 v).fn = (rotMat y1 p1 r1).mulVec v.fn)
    (hR2 : ∀ v, (R2 v).fn = (rotMat y2 p2 r2).mulVec v.fn) (pos1 pos2 : Vec3 ℝ)
    {vs oP oN oT : Nat} {m : OldMesh ℝ} {g : OldGeom ℝ} {l : OldLod ℝ} (order : OldOrderly vs m)
    (static : m.kind.isStatic = true) (h0 : Float3At m.vertformat m.vattrs 0 oP)
    (h3 : Float3At m.vertformat m.vattrs 3 oN) (h6 : Float3At m.vertformat m.vattrs 6 oT)
    (small : 2 * m.vertices.length ≤ 2 ^ 53) (hg : m.geoms[0]? = some g) (hl : g.lods[0]? = some l)
    (inside : ∀ k, (∃ a ∈ l.materials, ∃ v, OldPosOf vs oP m a v ∧
        ((R1 v).comp k ≤ l.min.comp k ∨ (R2 v).comp k + (pos2.comp k - pos1.comp k) ≤ l.min.comp k)) ∧
      ∃ a ∈ l.materials, ∃ v, OldPosOf vs oP m a v ∧
        (l.max.comp k ≤ (R1 v).comp k ∨ l.max.comp k ≤ (R2 v).comp k + (pos2.comp k - pos1.comp k))) :
    ∃ (m' : OldMesh ℝ) (h : Fin 3 → ℝ), joinStatics pos1 pos2 [y1, p1, r1] [y2, p2, r2] m = (m', none) ∧
      ∀ k, (∀ i < l.materials.length, ∀ a', m'.mats[i]? = some a' → ∀ x, OldPosOf vs oP m' a' x →
          |x.comp k| ≤ h k) ∧
        ∀ s ∈ [h k, -h k], ∃ i < l.materials.length, ∃ a', m'.mats[i]? = some a' ∧
          ∃ x, OldPosOf vs oP m' a' x ∧ x.comp k = s := by
  have e1 : R1 = rotMap (Real.cos (deg y1)) (Real.sin (deg y1)) (Real.cos (deg p1)) (Real.sin (deg p1))
      (Real.cos (deg r1)) (Real.sin (deg r1)) :=
    funext fun v => fn_injective ((hR1 v).trans (rotMap_real y1 p1 r1 v).symm)
  have e2 : R2 = rotMap (Real.cos (deg y2)) (Real.sin (deg y2)) (Real.cos (deg p2)) (Real.sin (deg p2))
      (Real.cos (deg r2)) (Real.sin (deg r2)) :=
    funext fun v => fn_injective ((hR2 v).trans (rotMap_real y2 p2 r2 v).symm)
  have t : ∀ y p r, Turner [y, p, r] (rotMap (Real.cos (deg y)) (Real.sin (deg y)) (Real.cos (deg p))
      (Real.sin (deg p)) (Real.cos (deg r)) (Real.sin (deg r))) :=
    fun y p r _ _ _ _ _ packed tiled h0 h3 h6 bounds small =>
      oldRotate_tiled packed tiled h0 h3 h6 bounds small ⟨⟨rfl, rfl⟩, ⟨rfl, rfl⟩, ⟨rfl, rfl⟩⟩ []
  have t1 : Turner [y1, p1, r1] R1 := e1 ▸ t y1 p1 r1
  have t2 : Turner [y2, p2, r2] R2 := e2 ▸ t y2 p2 r2
  obtain ⟨m', c, mn1, mx1, mn, mx, run, order', -, len, mats, rfl, b1, b2⟩ :=
    joined_of t1 t2 pos1 pos2 order static h0 h3 h6 small hg hl
  have fits := order.packed.table.packs.fits order.packed.table.format h0
  have first : ∀ i < l.materials.length, ∀ a', m'.mats[i]? = some a' → ∀ x, OldPosOf vs oP m' a' x ↔
      ∃ a, l.materials[i]? = some a ∧ ∃ v, OldPosOf vs oP m a v ∧
        (x = shifted (boxMiddle mn mx).neg (R1 v) ∨
          x = shifted (boxMiddle mn mx).neg (shifted (pos2.sub pos1) (R2 v))) := by
    intro i hi a' ha' x
    have hm := first_mats hg hl hi
    rw [List.getElem?_eq_getElem hi] at hm
    obtain ⟨a'', h1, h2, -, h3⟩ := mats i _ hm
    rw [ha'] at h1
    cases h1
    rw [joined_pos fits h2 h3]
    simp only [List.getElem?_eq_getElem hi, Option.some.injEq, exists_eq_left']
  have there : ∀ i < l.materials.length, ∃ a', m'.mats[i]? = some a' := by
    intro i hi
    have hm := first_mats hg hl hi
    rw [List.getElem?_eq_getElem hi] at hm
    obtain ⟨a', h1, -⟩ := mats i _ hm
    exact ⟨a', h1⟩
  refine ⟨m', fun k => (mx.comp k - mn.comp k) / 2, run, fun k => ?_⟩
  have mid : ∀ v : Vec3 ℝ, (shifted (boxMiddle mn mx).neg v).comp k =
      v.comp k - (mn.comp k + mx.comp k) / 2 := by
    intro v
    fin_cases k <;> simp [shifted, boxMiddle, Vec3.neg, Vec3.add, Vec3.comp, FArith.add, FArith.half,
      FArith.zero, FDiv.neg, sub_eq_add_neg]
  have lt : ∀ {x y : ℝ}, FArith.lt x y = false ↔ y ≤ x := fun {x y} => by
    change decide (x < y) = false ↔ _
    rw [decide_eq_false_iff_not, not_lt]
  -- the positions before centring
  set P : Vec3 ℝ → Prop := fun x => ∃ a ∈ l.materials, ∃ v, OldPosOf vs oP m a v ∧
    (x = R1 v ∨ x = shifted (pos2.sub pos1) (R2 v)) with hP
  have moved : ∀ v : Vec3 ℝ, (shifted (pos2.sub pos1) v).comp k =
      v.comp k + (pos2.comp k - pos1.comp k) := by
    intro v
    fin_cases k <;> simp [shifted, Vec3.sub, Vec3.neg, Vec3.add, Vec3.comp, FArith.add,
      FArith.zero, FDiv.neg, sub_eq_add_neg]
  have cov : ∀ x, P x → mn.comp k ≤ x.comp k ∧ x.comp k ≤ mx.comp k := fun x hx =>
    ⟨lt.1 (b2.covers x hx k).1, lt.1 (b2.covers x hx k).2⟩
  have low : ∃ x, P x ∧ x.comp k = mn.comp k := by
    rcases (b2.tight k).1 with e | ⟨x, hx, e⟩
    · rcases (b1.tight k).1 with e' | ⟨x, ⟨a, ha, v, hv, rfl⟩, e'⟩
      · obtain ⟨⟨a, ha, v, hv, hle⟩, -⟩ := inside k
        rw [← e', ← e] at hle
        rcases hle with hle | hle
        · exact ⟨_, ⟨a, ha, v, hv, .inl rfl⟩, le_antisymm hle (cov _ ⟨a, ha, v, hv, .inl rfl⟩).1⟩
        · rw [← moved] at hle
          exact ⟨_, ⟨a, ha, v, hv, .inr rfl⟩, le_antisymm hle (cov _ ⟨a, ha, v, hv, .inr rfl⟩).1⟩
      · exact ⟨_, ⟨a, ha, v, hv, .inl rfl⟩, (e.trans e').symm⟩
    · exact ⟨x, hx, e.symm⟩
  have high : ∃ x, P x ∧ x.comp k = mx.comp k := by
    rcases (b2.tight k).2 with e | ⟨x, hx, e⟩
    · rcases (b1.tight k).2 with e' | ⟨x, ⟨a, ha, v, hv, rfl⟩, e'⟩
      · obtain ⟨-, a, ha, v, hv, hle⟩ := inside k
        rw [← e', ← e] at hle
        rcases hle with hle | hle
        · exact ⟨_, ⟨a, ha, v, hv, .inl rfl⟩, le_antisymm (cov _ ⟨a, ha, v, hv, .inl rfl⟩).2 hle⟩
        · rw [← moved] at hle
          exact ⟨_, ⟨a, ha, v, hv, .inr rfl⟩, le_antisymm (cov _ ⟨a, ha, v, hv, .inr rfl⟩).2 hle⟩
      · exact ⟨_, ⟨a, ha, v, hv, .inl rfl⟩, (e.trans e').symm⟩
    · exact ⟨x, hx, e.symm⟩
  have back : ∀ x, P x → ∃ i < l.materials.length, ∃ a', m'.mats[i]? = some a' ∧
      OldPosOf vs oP m' a' (shifted (boxMiddle mn mx).neg x) := by
    rintro x ⟨a, ha, v, hv, e⟩
    obtain ⟨i, hi⟩ := List.mem_iff_getElem?.1 ha
    have hlt := (List.getElem?_eq_some_iff.1 hi).1
    obtain ⟨a', ha'⟩ := there i hlt
    refine ⟨i, hlt, a', ha', (first i hlt a' ha' _).2 ⟨a, hi, v, hv, ?_⟩⟩
    rcases e with rfl | rfl
    · exact .inl rfl
    · exact .inr rfl
  constructor
  · intro i hi a' ha' x hx
    obtain ⟨a, ha, v, hv, e⟩ := (first i hi a' ha' x).1 hx
    have : ∃ y, P y ∧ x = shifted (boxMiddle mn mx).neg y := by
      rcases e with rfl | rfl
      · exact ⟨_, ⟨a, List.mem_of_getElem? ha, v, hv, .inl rfl⟩, rfl⟩
      · exact ⟨_, ⟨a, List.mem_of_getElem? ha, v, hv, .inr rfl⟩, rfl⟩
    obtain ⟨y, hy, rfl⟩ := this
    obtain ⟨c1, c2⟩ := cov y hy
    rw [mid, abs_le]
    constructor <;> linarith
  · intro s hs
    simp only [List.mem_cons, List.not_mem_nil, or_false] at hs
    rcases hs with rfl | rfl
    · obtain ⟨x, hx, e⟩ := high
      obtain ⟨i, hi, a', ha', h⟩ := back x hx
      exact ⟨i, hi, a', ha', _, h, by rw [mid, e]; ring⟩
    · obtain ⟨x, hx, e⟩ := low
      obtain ⟨i, hi, a', ha', h⟩ := back x hx
      exact ⟨i, hi, a', ha', _, h, by rw [mid, e]; ring⟩

/-! ### Two vertices in exact arithmetic -/

/-- Two vertices at the corners of the bounds of their lod. -/
def cornersMesh (low high : Vec3 ℝ) : OldMesh ℝ where
  kind := staticKind
  head := ⟨0, 11, 0, 0, 0⟩
  u1 := 0
  geomnum := 1
  geoms := [⟨1, [{
    min := low, max := high, pivot := none, rignum := none, rigs := [], nodenum := some 0, nodes := none
    matnum := 1, polyInum := 3
    materials := [⟨some 0, [], [], 0, [], 0, 0, 3, 2, 0, 0, some low, some high⟩] }]⟩]
  vertattribnum := 4
  vattrs := turningAttrs
  vertformat := 4
  vertstride := 36
  vertnum := 2
  vertices := low.toList ++ [1, 0, 0, 0, 1, 0] ++ high.toList ++ [1, 0, 0, 0, 1, 0]
  vertsList := false
  indexnum := 3
  index := [0, 1, 0]
  indexList := false
  u2 := 8

theorem turning_pos : Float3At 4 turningAttrs 0 0 := ⟨⟨0, 0, 2, 0⟩, by decide, by decide⟩

theorem turning_normal : Float3At 4 turningAttrs 3 3 := ⟨⟨0, 12, 2, 3⟩, by decide, by decide⟩

theorem turning_tangent : Float3At 4 turningAttrs 6 6 := ⟨⟨0, 24, 2, 6⟩, by decide, by decide⟩

theorem cornersMesh_orderly (low high : Vec3 ℝ) : OldOrderly 9 (cornersMesh low high) where
  wf :=
    { geoms := rfl
      lods := by intro g hg; obtain rfl := List.mem_singleton.1 hg; rfl
      lod := by
        intro g hg l hl
        obtain rfl := List.mem_singleton.1 hg
        obtain rfl := List.mem_singleton.1 hl
        refine ⟨rfl, rfl, rfl, fun r hr => (List.not_mem_nil hr).elim, rfl, rfl, rfl, fun a ha => ?_⟩
        obtain rfl := List.mem_singleton.1 ha
        exact ⟨rfl, rfl, rfl, rfl⟩
      vattrs := rfl
      vertformat := (by decide : (4 : Int) ≠ 0)
      vertices := (by decide +kernel : (18 : Int) = intDivMul 36 4 2)
      not_one := (by decide : 18 ≠ 1)
      index := rfl
      u2 := fun h => nomatch h }
  packed := ⟨turningTable, rfl⟩
  tiled := ⟨by intro a ha; obtain rfl := List.mem_singleton.1 ha; exact (by decide : (0 : Int) ≤ 2), starts_of rfl, rfl⟩
  tiledIndex := ⟨by intro a ha; obtain rfl := List.mem_singleton.1 ha; exact (by decide : (0 : Int) ≤ 3), starts_of rfl, rfl⟩
  bounds := by intro a ha; obtain rfl := List.mem_singleton.1 ha; exact ⟨nofun, nofun⟩
  pos := ⟨0, turning_pos⟩
  normal := ⟨3, turning_normal⟩
  tangent := ⟨6, turning_tangent⟩
  small := (by decide : 18 ≤ 2 ^ 53)

/-- The hypotheses of `C132_centred` hold for these two vertices, not turned and put beside each other. -/
example (low high : Vec3 ℝ) :
    let m := cornersMesh low high
    OldOrderly 9 m ∧ m.kind.isStatic = true ∧ 2 * m.vertices.length ≤ 2 ^ 53 ∧
    Float3At m.vertformat m.vattrs 0 0 ∧ Float3At m.vertformat m.vattrs 3 3 ∧
    Float3At m.vertformat m.vattrs 6 6 ∧ (∀ v : Vec3 ℝ, (id v).fn = (rotMat 0 0 0).mulVec v.fn) ∧
    ∃ g l, m.geoms[0]? = some g ∧ g.lods[0]? = some l ∧ ∀ k,
      (∃ a ∈ l.materials, ∃ v, OldPosOf 9 0 m a v ∧ v.comp k ≤ l.min.comp k) ∧
      ∃ a ∈ l.materials, ∃ v, OldPosOf 9 0 m a v ∧ l.max.comp k ≤ v.comp k := by
  refine ⟨cornersMesh_orderly low high, rfl, (by decide : 2 * 18 ≤ 2 ^ 53),
    turning_pos, turning_normal,
    turning_tangent, fun v => ?_, _, _, rfl, rfl, fun k => ⟨⟨_, .head _, low, ?_, le_rfl⟩,
    ⟨_, .head _, high, ?_, le_rfl⟩⟩⟩
  · have : rotMat 0 0 0 = 1 := by
      unfold rotMat yawMat pitchMat rollMat deg
      ext i j
      fin_cases i <;> fin_cases j <;> simp
    rw [this, Matrix.one_mulVec]
    rfl
  · exact ⟨0, by simp [Mat.ids], rfl⟩
  · exact ⟨1, by simp [Mat.ids], rfl⟩

/-! ### A box -/

section
attribute [local instance] quarterTurn

/-- `Box()`, moved by (1, 2, 3); the bounds of its lod are those of its vertices. -/
def farBox : OldMesh F64 :=
  { staticBox with
    vertices := staticBox1.vertices
    geoms := [⟨1, [{ boxLod with min := ⟨hf 1, hf 4, hf 5⟩, max := ⟨hf 3, hf 6, hf 7⟩ }]⟩] }

theorem farBox_orderly : OldOrderly 12 farBox := by
  have hl : staticBox1.vertices.length = staticBox.vertices.length := by decide +kernel
  have h := staticBox_orderly.arrays (b := false) (c := true) hl
  refine ⟨⟨rfl, ?_, ?_, h.wf.vattrs, h.wf.vertformat, h.wf.vertices, h.wf.not_one, h.wf.index, h.wf.u2⟩,
    ⟨h.packed.table, h.packed.count⟩, ⟨h.tiled.nonneg, h.tiled.start, h.tiled.total⟩,
    ⟨h.tiledIndex.nonneg, h.tiledIndex.start, h.tiledIndex.total⟩, h.bounds, h.pos, h.normal, h.tangent,
    h.small⟩
  · intro g hg
    obtain rfl := List.mem_singleton.1 hg
    rfl
  · intro g hg l hl
    obtain rfl := List.mem_singleton.1 hg
    obtain rfl := List.mem_singleton.1 hl
    have := h.wf.lod ⟨1, [boxLod]⟩ (List.mem_singleton.2 rfl) boxLod (List.mem_singleton.2 rfl)
    exact ⟨this.1, this.2, this.3, this.4, this.5, this.6, this.7, this.8⟩

/-- The hypotheses of `C132_joined`. -/
example : OldOrderly 12 farBox ∧ farBox.kind.isStatic = true ∧
    Float3At farBox.vertformat farBox.vattrs 0 0 ∧ Float3At farBox.vertformat farBox.vattrs 3 3 ∧
    Float3At farBox.vertformat farBox.vattrs 6 9 ∧ 2 * farBox.vertices.length ≤ 2 ^ 53 ∧
    ∀ a ∈ [hf 180, hf 0, hf 0], (Libm.cos (Libm.radians a)).isSome ∧ (Libm.sin (Libm.radians a)).isSome :=
  ⟨farBox_orderly, rfl, ⟨⟨0, 0, 2, 0⟩, by decide, by decide⟩, ⟨⟨0, 12, 2, 3⟩, by decide, by decide⟩,
    ⟨⟨0, 36, 2, 6⟩, by decide, by decide⟩, by decide +kernel, fun _ _ => ⟨rfl, rfl⟩⟩

/-- **C132.** Turning spoils the centring: bounds that were those of the vertices when loaded stick out of
the pieces turned.  With a `sin` and `cos` that make a quarter turn of every angle, here is a box that
is turned twice onto the same place and ends with all its vertices on one side of the origin. -/
theorem C132_not_centred : ∃ (m : OldMesh F64) (g : OldGeom F64) (l : OldLod F64), OldOrderly 12 m ∧
    m.kind.isStatic = true ∧ m.geoms[0]? = some g ∧ g.lods[0]? = some l ∧
    (∀ i < 24, ∀ k, (vec3At m.vertices (i * 12)).map (·.comp k) ∈ [some (l.min.comp k), some (l.max.comp k)]) ∧
    let r := joinStatics ⟨hf 0, hf 0, hf 0⟩ ⟨hf 0, hf 0, hf 0⟩ [hf 180, hf 0, hf 0] [hf 180, hf 0, hf 0] m
    r.2 = none ∧ r.1.vertnum = 48 ∧
      ∀ i < 48, (vec3At r.1.vertices (i * 12)).map (fun v => FArith.lt v.y F64.zero) = some true :=
  ⟨farBox, _, _, farBox_orderly, rfl, rfl, rfl, by decide +kernel, by decide +kernel⟩

end

end Bf2
