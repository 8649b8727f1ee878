import Verif.RepoDetectSpec
import Verif.RepoTestsLemmas
import Verif.Props.Equal

/-! # Lemmas about what the write tests show -/

namespace Bf2

theorem assertLists_true {α : Type} {eq : α → α → Bool} {R : α → α → Prop}
    (h : ∀ a b, eq a b = true ↔ R a b) (l r : List α) :
    assertLists eq l r = true ↔ List.Forall₂ R l r := by
  induction l generalizing r with
  | nil => cases r <;> simp [assertLists]
  | cons a l ih => cases r <;> simp [assertLists, h, ih]

theorem forall₂_eq {α : Type} {l r : List α} : List.Forall₂ (fun a b => a = b) l r ↔ l = r := by
  rw [List.forall₂_eq_eq_eq]

theorem forall₂_and_left {α β : Type} {R S : α → β → Prop} {l : List α} {r : List β} :
    List.Forall₂ (fun a b => R a b ∧ S a b) l r ↔ List.Forall₂ R l r ∧ List.Forall₂ S l r := by
  induction l generalizing r with
  | nil => cases r <;> simp
  | cons a l ih =>
    cases r with
    | nil => simp
    | cons b r => simp only [List.forall₂_cons, ih]; tauto

theorem assertLods_true {k : Kind} {v v' : Int} {g h : Geom F64} (hg : GeomWF k v g)
    (hh : GeomWF k v' h) (len : g.lodnum = h.lodnum) :
    assertLods g h = .ok true ↔ List.Forall₂ LodEqual g.lods h.lods :=
  eqEach_true_mem _ _ (fun a ha b hb =>
    C54_lod_equal a b (hg.nodes a ha) (hh.nodes b hb) (hg.mats a ha) (hh.mats b hb))
    (by rw [hg.lods, hh.lods, len])

theorem writeTests_agrees {s m : Mesh F64} (ws : MeshWF s) (wm : MeshWF m) (kind : s.kind = m.kind) :
    writeTests s m = .ok true ↔ MeshAgrees s m := by
  unfold writeTests
  simp only [thenAssert_true, decide_eq_true_eq, C56_head_equal,
    assertLists_true C55_geom_equal, assertLists_true C56_vertattrib_equal, assertLists_true feq_iff,
    assertLists_true (R := fun g h : Geom F64 => g.lodnum = h.lodnum) (fun _ _ => decide_eq_true_iff),
    forall₂_eq]
  have key : List.Forall₂ (fun g h : Geom F64 => g.lodnum = h.lodnum) s.geoms m.geoms →
      (eqEach assertLods s.geoms m.geoms = .ok true ↔
        List.Forall₂ (fun g h : Geom F64 => List.Forall₂ LodEqual g.lods h.lods) s.geoms m.geoms) := by
    intro hl
    have wf : ∀ g ∈ s.geoms, GeomWF s.kind s.head.version g := ws.geom
    clear ws
    have wf' : ∀ g ∈ m.geoms, GeomWF s.kind m.head.version g := fun g hg => by
      rw [kind]; exact wm.geom g hg
    generalize s.geoms = gs at *
    generalize m.geoms = hs at *
    induction hl with
    | nil => simp [eqEach]
    | @cons g h gs hs hd tl ih =>
      have step : eqEach assertLods (g :: gs) (h :: hs) = .ok true ↔
          assertLods g h = .ok true ∧ eqEach assertLods gs hs = .ok true := by
        rw [eqEach]
        rcases assertLods g h with e | _ | _ <;> simp
      have ih' := ih (fun x hx => wf x (by simp [hx])) fun x hx => wf' x (by simp [hx])
      rw [step, List.forall₂_cons]
      exact and_congr (assertLods_true (wf g (by simp)) (wf' h (by simp)) hd) ih'
  constructor
  · rintro ⟨h1, h2, h3, -, h5, h6, h7, h8, h9, h10, h11, h12, h13, h14, h15⟩
    exact ⟨h1, h2, h3, forall₂_and_left.2 ⟨h5, (key h5).1 h15⟩, h6, h7, h8, h9, h10, h11, h12, h13, h14⟩
  · rintro ⟨h1, h2, h3, h4, h6, h7, h8, h9, h10, h11, h12, h13, h14⟩
    obtain ⟨h5, h15⟩ := forall₂_and_left.1 h4
    exact ⟨h1, h2, h3, h4.imp fun g h hh => ⟨hh.1, hh.2.length_eq⟩, h5, h6, h7, h8, h9, h10, h11, h12,
      h13, h14, (key h5).2 h15⟩

/-! ## From equal numbers to equal doubles -/

theorem NumEq.eq {x y : F64} (h : NumEq x y) (hx : NotMinusZero x) (hy : NotMinusZero y) : x = y := by
  have hk := (feq_iff x y).2 h
  simp only [F64.feq, Bool.and_eq_true, decide_eq_true_eq] at hk
  have hk := hk.2
  unfold F64.key at hk
  have z : ∀ w : F64, w.mag = 0 → w.value = 0 := fun w hw => by
    rw [value_eq, hw, (decMag_eq_zero 52 (-1074) 0).2 rfl]
    simp
  have hx' : x.mag = 0 → x.neg = false := fun e => hx (z x e)
  have hy' : y.mag = 0 → y.neg = false := fun e => hy (z y e)
  obtain ⟨xn, xm, xl⟩ := x
  obtain ⟨yn, ym, yl⟩ := y
  simp only at hk hx' hy'
  have : xn = yn ∧ xm = ym := by
    cases xn <;> cases yn <;> simp at hk hx' hy' ⊢ <;> omega
  obtain ⟨rfl, rfl⟩ := this
  rfl

theorem NumsEq.eq {xs ys : List F64} (h : NumsEq xs ys) (hx : ∀ x ∈ xs, NotMinusZero x)
    (hy : ∀ y ∈ ys, NotMinusZero y) : xs = ys := by
  unfold NumsEq at h
  induction h with
  | nil => rfl
  | @cons a b l r h _ ih =>
    rw [NumEq.eq h (hx a (by simp)) (hy b (by simp)),
      ih (fun x hx' => hx x (by simp [hx'])) fun y hy' => hy y (by simp [hy'])]

theorem vec3_ext {a b : Vec3 F64} (h : a.floats = b.floats) : a = b := by
  cases a; cases b
  simpa [Vec3.floats] using h

theorem vec4_ext {a b : Vec4 F64} (h : a.floats = b.floats) : a = b := by
  cases a; cases b
  simpa [Vec4.floats] using h

theorem mat4_ext {a b : Mat4 F64} (h : a.floats = b.floats) : a = b := by
  obtain ⟨⟨_, _, _, _⟩, ⟨_, _, _, _⟩, ⟨_, _, _, _⟩, ⟨_, _, _, _⟩⟩ := a
  obtain ⟨⟨_, _, _, _⟩, ⟨_, _, _, _⟩, ⟨_, _, _, _⟩, ⟨_, _, _, _⟩⟩ := b
  simp [Mat4.floats, Vec4.floats] at h
  simp [h]

theorem optVec_ext {a b : Option (Vec3 F64)} (h : optFloats a = optFloats b) : a = b := by
  rcases a with _ | a <;> rcases b with _ | b
  · rfl
  · simp [optFloats, Vec3.floats] at h
  · simp [optFloats, Vec3.floats] at h
  · exact congrArg some (vec3_ext h)

theorem forall₂_mapped {α β : Type} {R : α → α → Prop} {f : α → β} {l r : List α}
    (h : List.Forall₂ R l r) (hf : ∀ a ∈ l, ∀ b ∈ r, R a b → f a = f b) : l.map f = r.map f := by
  induction h with
  | nil => rfl
  | @cons a b l r h _ ih =>
    rw [List.map_cons, List.map_cons, hf a (by simp) b (by simp) h,
      ih fun x hx y hy => hf x (by simp [hx]) y (by simp [hy])]

theorem forall₂_eq_of {α : Type} {R : α → α → Prop} {l r : List α}
    (h : List.Forall₂ R l r) (hf : ∀ a ∈ l, ∀ b ∈ r, R a b → a = b) : l = r := by
  have := forall₂_mapped (f := id) h hf
  simpa using this

theorem MatEqual.strip {a b : Mat F64} (h : MatEqual a b) (ha : ∀ x ∈ optFloats a.mmin, NotMinusZero x)
    (hb : ∀ x ∈ optFloats b.mmin, NotMinusZero x) : { a with mmax := none } = { b with mmax := none } := by
  have := optVec_ext (NumsEq.eq h.mmin ha hb)
  obtain ⟨h1, h2, h3, h4, h5, h6, h7, h8, h9, h10, h11, -⟩ := h
  cases a; cases b
  simp_all

theorem BoneEqual.eq {a b : Bone F64} (h : BoneEqual a b) (ha : ∀ x ∈ a.matrix.floats, NotMinusZero x)
    (hb : ∀ x ∈ b.matrix.floats, NotMinusZero x) : a = b := by
  have := mat4_ext (NumsEq.eq h.matrix ha hb)
  obtain ⟨h1, -⟩ := h
  cases a; cases b
  simp_all

theorem RigEqual.eq {a b : Rig F64} (h : RigEqual a b)
    (ha : ∀ x ∈ a.bones.flatMap (fun b => b.matrix.floats), NotMinusZero x)
    (hb : ∀ x ∈ b.bones.flatMap (fun b => b.matrix.floats), NotMinusZero x) : a = b := by
  have := forall₂_eq_of h.bones fun c hc d hd e => e.eq
    (fun x hx => ha x (List.mem_flatMap.2 ⟨c, hc, hx⟩)) fun x hx => hb x (List.mem_flatMap.2 ⟨d, hd, hx⟩)
  obtain ⟨h1, -⟩ := h
  cases a; cases b
  simp_all

theorem LodEqual.strip {a b : Lod F64} (h : LodEqual a b)
    (ha : ∀ x ∈ a.nodeFloats ++ a.materials.flatMap Mat.floats, NotMinusZero x)
    (hb : ∀ x ∈ b.nodeFloats ++ b.materials.flatMap Mat.floats, NotMinusZero x) :
    a.withMmax (fun _ => none) = b.withMmax (fun _ => none) := by
  have part : ∀ {l : Lod F64}, (∀ x ∈ l.nodeFloats ++ l.materials.flatMap Mat.floats, NotMinusZero x) →
      (∀ x ∈ l.min.floats, NotMinusZero x) ∧ (∀ x ∈ l.max.floats, NotMinusZero x) ∧
      (∀ x ∈ optFloats l.pivot, NotMinusZero x) ∧
      (∀ r ∈ l.rigs, ∀ x ∈ r.bones.flatMap (fun b => b.matrix.floats), NotMinusZero x) ∧
      (∀ n ∈ l.nodes, ∀ x ∈ n.floats, NotMinusZero x) ∧
      (∀ c ∈ l.materials, ∀ x ∈ optFloats c.mmin, NotMinusZero x) := by
    intro l hl
    simp only [Lod.nodeFloats, List.mem_append] at hl
    refine ⟨fun x hx => hl x (by tauto), fun x hx => hl x (by tauto), fun x hx => hl x (by tauto),
      fun r hr x hx => hl x (.inl (.inl (.inr (List.mem_flatMap.2 ⟨r, hr, hx⟩)))),
      fun n hn x hx => hl x (.inl (.inr (List.mem_flatMap.2 ⟨n, hn, hx⟩))),
      fun c hc x hx => hl x (.inr (List.mem_flatMap.2 ⟨c, hc, ?_⟩))⟩
    unfold Mat.floats
    exact List.mem_append.2 (.inl hx)
  obtain ⟨a1, a2, a3, a4, a5, a6⟩ := part ha
  obtain ⟨b1, b2, b3, b4, b5, b6⟩ := part hb
  have e1 := vec3_ext (NumsEq.eq h.min a1 b1)
  have e2 := vec3_ext (NumsEq.eq h.max a2 b2)
  have e3 := optVec_ext (NumsEq.eq h.pivot a3 b3)
  have e4 := forall₂_eq_of h.rigs fun r hr r' hr' e => e.eq (a4 r hr) (b4 r' hr')
  have e5 := forall₂_eq_of h.nodes fun n hn n' hn' e => mat4_ext (NumsEq.eq e (a5 n hn) (b5 n' hn'))
  have e6 := forall₂_mapped (f := fun x : Mat F64 => { x with mmax := none }) h.materials
    fun c hc c' hc' e => e.strip (a6 c hc) (b6 c' hc')
  obtain ⟨-, -, -, h4, -, h6, -, h8, -⟩ := h
  clear ha hb part a1 a2 a3 a4 a5 a6 b1 b2 b3 b4 b5 b6
  obtain ⟨_, _, _, _, _, _, _, _, ms⟩ := a
  obtain ⟨_, _, _, _, _, _, _, _, ms'⟩ := b
  simp only at e1 e2 e3 e4 e5 e6 h4 h6 h8
  subst e1 e2 e3 e4 e5 h4 h6 h8
  unfold Lod.withMmax
  simp only [e6]

theorem MeshAgrees.strip {s m : Mesh F64} (kind : s.kind = m.kind) (h : MeshAgrees s m)
    (hs : ∀ x ∈ s.floats, NotMinusZero x) (hm : ∀ x ∈ m.floats, NotMinusZero x) :
    s.withMmax (fun _ => none) = m.withMmax (fun _ => none) := by
  have part : ∀ {m : Mesh F64}, (∀ x ∈ m.floats, NotMinusZero x) →
      (∀ x ∈ m.vertices, NotMinusZero x) ∧ ∀ g ∈ m.geoms, ∀ l ∈ g.lods,
        ∀ x ∈ l.nodeFloats ++ l.materials.flatMap Mat.floats, NotMinusZero x := by
    intro m hm
    simp only [Mesh.floats, List.mem_append] at hm
    refine ⟨fun x hx => hm x (.inl (.inl hx)), fun g hg l hl x hx => hm x ?_⟩
    rcases List.mem_append.1 hx with hx | hx
    · exact .inl (.inr (List.mem_flatMap.2 ⟨g, hg, List.mem_flatMap.2 ⟨l, hl, hx⟩⟩))
    · exact .inr (List.mem_flatMap.2 ⟨g, hg, List.mem_flatMap.2 ⟨l, hl, hx⟩⟩)
  obtain ⟨s1, s2⟩ := part hs
  obtain ⟨m1, m2⟩ := part hm
  have ev := NumsEq.eq h.vertices s1 m1
  have eg := forall₂_mapped (f := Geom.withMmax fun _ => none) h.geoms
    fun g hg g' hg' e => by
      have := forall₂_mapped (f := Lod.withMmax fun _ => none) e.2
        fun l hl l' hl' e => e.strip (s2 g hg l hl) (m2 g' hg' l' hl')
      unfold Geom.withMmax
      rw [this, e.1]
  obtain ⟨h1, h2, h3, -, h5, h6, h7, h8, h9, -, h11, h12, h13⟩ := h
  unfold Mesh.withMmax
  rw [eg]
  obtain ⟨⟩ := s
  obtain ⟨⟩ := m
  simp only at *
  subst kind h1 h2 h3 h5 h6 h7 h8 h9 h11 h12 h13 ev
  rfl

theorem mats_withMmax (f : Mat F64 → Option (Vec3 F64)) (m : Mesh F64) :
    (m.withMmax f).mats = m.mats.map fun a => { a with mmax := f a } := by
  unfold Mesh.mats Mesh.withMmax
  simp only [List.flatMap_map, List.map_flatMap]
  congr 1
  funext g
  unfold Geom.mats Geom.withMmax
  simp only [List.flatMap_map, List.map_flatMap]
  rfl

theorem shape_withMmax (f : Mat F64 → Option (Vec3 F64)) (m : Mesh F64) :
    (m.withMmax f).geoms.map Geom.shape = m.geoms.map Geom.shape := by
  unfold Mesh.withMmax
  simp only [List.map_map]
  congr 1
  funext g
  simp [Geom.shape, Geom.withMmax, Lod.withMmax, Function.comp_def]

theorem eq_of_strip {s m : Mesh F64} (h : s.withMmax (fun _ => none) = m.withMmax (fun _ => none))
    (hm : s.mats.map Mat.mmax = m.mats.map Mat.mmax) : s = m := by
  have h1 : s.geoms.map Geom.shape = m.geoms.map Geom.shape := by
    rw [← shape_withMmax (fun _ => none) s, h, shape_withMmax]
  have h2 : s.mats.map (fun a => { a with mmax := none }) = m.mats.map fun a => { a with mmax := none } := by
    rw [← mats_withMmax (fun _ => none) s, h, mats_withMmax]
  have h3 : s.mats = m.mats := by
    clear h h1
    generalize s.mats = l at *
    generalize m.mats = r at *
    induction l generalizing r with
    | nil => cases r with
      | nil => rfl
      | cons b r => simp at hm
    | cons a l ih =>
      cases r with
      | nil => simp at hm
      | cons b r =>
        simp only [List.map_cons, List.cons.injEq] at hm h2
        rw [ih r hm.2 h2.2]
        congr 1
        cases a; cases b
        simp_all
  have h4 : s.geoms = m.geoms := geoms_ext h1 h3
  unfold Mesh.withMmax at h
  cases s; cases m
  simp_all

theorem withMmax_agrees {m : Mesh F64} (f : Mat F64 → Option (Vec3 F64))
    (h : MeshAgrees m m) : MeshAgrees (m.withMmax f) m := by
  obtain ⟨h1, h2, h3, h4, h5, h6, h7, h8, h9, h10, h11, h12, h13⟩ := h
  refine ⟨h1, h2, h3, ?_, h5, h6, h7, h8, h9, h10, h11, h12, h13⟩
  show List.Forall₂ _ (m.geoms.map _) m.geoms
  rw [List.forall₂_map_left_iff]
  refine h4.imp fun g h hh => ⟨hh.1, ?_⟩
  show List.Forall₂ _ (g.lods.map _) h.lods
  rw [List.forall₂_map_left_iff]
  refine hh.2.imp fun l l' e => ?_
  obtain ⟨e1, e2, e3, e4, e5, e6, e7, e8, e9⟩ := e
  refine ⟨e1, e2, e3, e4, e5, e6, e7, e8, ?_⟩
  show List.Forall₂ _ (l.materials.map _) l'.materials
  rw [List.forall₂_map_left_iff]
  exact e9.imp fun a b e => ⟨e.1, e.2, e.3, e.4, e.5, e.6, e.7, e.8, e.9, e.10, e.11, e.12⟩

theorem withMmax_wf {m : Mesh F64} (hw : MeshWF m) {f : Mat F64 → Option (Vec3 F64)}
    (some : ∀ a ∈ m.mats, (f a).isSome = a.mmax.isSome) : MeshWF (m.withMmax f) := by
  refine ⟨?_, ?_, hw.vattrs, hw.vertformat, hw.vertices, hw.not_one, hw.index, hw.u2⟩
  · show (m.geoms.map _).length = _
    rw [List.length_map]
    exact hw.geoms
  · intro g hg
    obtain ⟨g0, h0, rfl⟩ := List.mem_map.1 hg
    obtain ⟨h1, h2, h3⟩ := hw.geom g0 h0
    refine ⟨?_, ?_, ?_⟩
    · show (g0.lods.map _).length = _
      rw [List.length_map]
      exact h1
    · intro l hl
      obtain ⟨l0, hl0, rfl⟩ := List.mem_map.1 hl
      obtain ⟨a1, a2, a3, a4, a5, a6⟩ := h2 l0 hl0
      exact ⟨a1, a2, a3, a4, a5, a6⟩
    · intro l hl
      obtain ⟨l0, hl0, rfl⟩ := List.mem_map.1 hl
      obtain ⟨a1, a2⟩ := h3 l0 hl0
      refine ⟨?_, fun a ha => ?_⟩
      · show (l0.materials.map _).length = _
        rw [List.length_map]
        exact a1
      · obtain ⟨a0, ha0, rfl⟩ := List.mem_map.1 ha
        obtain ⟨b1, b2, b3, b4⟩ := a2 a0 ha0
        refine ⟨b1, b2, b3, ?_⟩
        exact (some a0 (List.mem_flatMap.2 ⟨g0, h0, List.mem_flatMap.2 ⟨l0, hl0, ha0⟩⟩)).trans b4

theorem withMmax_floats {m : Mesh F64} {f : Mat F64 → Option (Vec3 F64)} {P : F64 → Prop}
    (hm : ∀ x ∈ m.floats, P x) (hf : ∀ a ∈ m.mats, ∀ x ∈ optFloats (f a), P x) :
    ∀ x ∈ (m.withMmax f).floats, P x := by
  intro x hx
  simp only [Mesh.floats, List.mem_append, List.mem_flatMap, Mesh.withMmax, List.mem_map] at hx
  simp only [Mesh.floats, List.mem_append, List.mem_flatMap] at hm
  rcases hx with (hx | ⟨g, ⟨g0, h0, rfl⟩, l, hl, hx⟩) | ⟨g, ⟨g0, h0, rfl⟩, l, hl, a, ha, hx⟩
  · exact hm x (.inl (.inl hx))
  · obtain ⟨l0, hl0, rfl⟩ := List.mem_map.1 hl
    exact hm x (.inl (.inr ⟨g0, h0, l0, hl0, hx⟩))
  · obtain ⟨l0, hl0, rfl⟩ := List.mem_map.1 hl
    obtain ⟨a0, ha0, rfl⟩ := List.mem_map.1 ha
    rcases List.mem_append.1 hx with hx | hx
    · exact hm x (.inr ⟨g0, h0, l0, hl0, a0, ha0, List.mem_append.2 (.inl hx)⟩)
    · exact hf a0 (List.mem_flatMap.2 ⟨g0, h0, List.mem_flatMap.2 ⟨l0, hl0, ha0⟩⟩) x hx

end Bf2
