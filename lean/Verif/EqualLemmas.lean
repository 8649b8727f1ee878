import Verif.Equal
import Verif.EqualSpec
import Verif.BoundsLemmas

/-! # Lemmas about equality -/

namespace Bf2

theorem feq_iff (x y : F64) : x.feq y = true ↔ NumEq x y := by
  unfold NumEq F64.feq F64.isNaN F64.isFin F64.isInf F64.key
  simp only [Bool.and_eq_true, Bool.not_eq_true', decide_eq_false_iff_not, decide_eq_true_eq]
  rw [value_eq, value_eq]
  have inj : ∀ a b, decMag 52 (-1074) a = decMag 52 (-1074) b ↔ a = b := fun a b =>
    (strictMono_nat_of_lt_succ (decMag_succ 52 (-1074))).injective.eq_iff
  have hxy := inj x.mag y.mag
  have hx0 := decMag_eq_zero 52 (-1074) x.mag
  have hy0 := decMag_eq_zero 52 (-1074) y.mag
  have hxn := decMag_nonneg 52 (-1074) x.mag
  have hyn := decMag_nonneg 52 (-1074) y.mag
  have opp : decMag 52 (-1074) x.mag = - decMag 52 (-1074) y.mag ↔ x.mag = 0 ∧ y.mag = 0 := by
    rw [← hx0, ← hy0]
    constructor
    · intro h; constructor <;> linarith
    · rintro ⟨h1, h2⟩; rw [h1, h2]; simp
  have opp' : - decMag 52 (-1074) x.mag = decMag 52 (-1074) y.mag ↔ x.mag = 0 ∧ y.mag = 0 := by
    rw [← opp]; constructor <;> intro h <;> linarith
  have hi : 0 < inf64 := by decide
  cases x.neg <;> cases y.neg <;>
    simp only [if_true, if_false, one_mul, neg_mul, Bool.false_eq_true, Bool.true_eq_false,
      and_true, and_false, or_false, neg_inj, hxy, opp, opp'] <;> omega

theorem feq_false (x y : F64) : x.feq y = false ↔ ¬ NumEq x y := by
  rw [← feq_iff, Bool.not_eq_true]

theorem vec3Eq_iff (a b : Vec3 F64) : vec3Eq a b = true ↔ NumsEq a.floats b.floats := by
  simp [vec3Eq, Vec3.floats, feq_iff, and_assoc]

theorem vec4Eq_iff (a b : Vec4 F64) : vec4Eq a b = true ↔ NumsEq a.floats b.floats := by
  simp [vec4Eq, Vec4.floats, feq_iff, and_assoc]

theorem mat4Eq_iff (a b : Mat4 F64) : mat4Eq a b = true ↔ NumsEq a.floats b.floats := by
  simp [mat4Eq, Mat4.floats, vec4Eq_iff, Vec4.floats, and_assoc]

theorem optVecEq_iff (a b : Option (Vec3 F64)) :
    optVecEq a b = true ↔ NumsEq (optFloats a) (optFloats b) := by
  cases a <;> cases b <;> simp [optVecEq, optFloats, vec3Eq_iff, Vec3.floats]

theorem guard_true {p : Prop} [Decidable p] {x : Except Err Bool} :
    (if p then .ok false else x) = .ok true ↔ ¬ p ∧ x = .ok true := by
  by_cases h : p <;> simp [h]

theorem guard_error {p : Prop} [Decidable p] {x : Except Err Bool} {e : Err} :
    (if p then .ok false else x) = .error e ↔ ¬ p ∧ x = .error e := by
  by_cases h : p <;> simp [h]

/-- The exception of formatting the two bounds, if any. -/
def boundsErr (a b : Option (Vec3 F64)) : Option Err :=
  match unpack6 a b with
  | .error e => some e
  | .ok l => fmtAll l

theorem eqBounds_true (a b : Option (Vec3 F64)) :
    eqBounds a b = .ok true ↔ NumsEq (optFloats a) (optFloats b) := by
  rw [← optVecEq_iff]
  unfold eqBounds
  cases optVecEq a b
  · rw [if_pos rfl]
    rcases unpack6 a b with e | l
    · simp
    · rcases h : fmtAll l with _ | e <;> simp [h]
  · simp

theorem eqBounds_error (a b : Option (Vec3 F64)) (e : Err) : eqBounds a b = .error e ↔
    ¬ NumsEq (optFloats a) (optFloats b) ∧ boundsErr a b = some e := by
  rw [← optVecEq_iff]
  unfold eqBounds boundsErr
  cases optVecEq a b
  · rw [if_pos rfl]
    rcases unpack6 a b with e | l
    · simp
    · rcases h : fmtAll l with _ | e <;> simp [h]
  · simp

theorem eqMat_true (a b : Mat F64) : eqMat a b = .ok true ↔ MatEqual a b := by
  unfold eqMat
  simp only [guard_true, eqBounds_true, ne_eq, not_not]
  constructor
  · rintro ⟨h1, h2, h3, h4, h5, h6, h7, h8, h9, h10, h11, h12⟩
    exact ⟨h1, h2, h3, h4, h5, h6, h7, h8, h9, h10, h11, h12⟩
  · rintro ⟨h1, h2, h3, h4, h5, h6, h7, h8, h9, h10, h11, h12⟩
    exact ⟨h1, h2, h3, h4, h5, h6, h7, h8, h9, h10, h11, h12⟩

/-- An exception comes out of a comparison exactly when the materials agree up to their bounds, the
lower bounds differ, and they cannot be formatted. -/
theorem eqMat_error (a b : Mat F64) (e : Err) : eqMat a b = .error e ↔
    b = { a with mmin := b.mmin, mmax := b.mmax } ∧
    ¬ NumsEq (optFloats a.mmin) (optFloats b.mmin) ∧ boundsErr a.mmin b.mmin = some e := by
  unfold eqMat
  simp only [guard_error, ne_eq, not_not]
  rw [eqBounds_error]
  constructor
  · rintro ⟨h1, h2, h3, h4, h5, h6, h7, h8, h9, h10, h11, h12⟩
    refine ⟨?_, h12⟩
    obtain ⟨⟩ := a
    obtain ⟨⟩ := b
    simp only at h1 h2 h3 h4 h5 h6 h7 h8 h9 h10 h11
    subst h1 h2 h3 h4 h5 h6 h7 h8 h9 h10 h11
    rfl
  · rintro ⟨h, h12⟩
    refine ⟨?_, ?_, ?_, ?_, ?_, ?_, ?_, ?_, ?_, ?_, ?_, h12⟩ <;> rw [h]

theorem fmtAll_none {l : List F64} (h : ∀ x ∈ l, x.isFin = true) : fmtAll l = none := by
  induction l with
  | nil => rfl
  | cons x l ih =>
    have hx := h x (by simp)
    simp only [F64.isFin, decide_eq_true_eq] at hx
    have : fmtD x = none := by
      unfold fmtD F64.isNaN F64.isInf
      rw [if_neg (by simp only [decide_eq_true_eq]; omega), if_neg (by simp only [decide_eq_true_eq]; omega)]
    unfold fmtAll
    rw [this]
    exact ih fun y hy => h y (by simp [hy])

theorem eqEach_true {α : Type} {eq : α → α → Except Err Bool} {R : α → α → Prop}
    (h : ∀ a b, eq a b = .ok true ↔ R a b) (l r : List α) (hlen : l.length = r.length) :
    eqEach eq l r = .ok true ↔ List.Forall₂ R l r := by
  induction l generalizing r with
  | nil =>
    cases r with
    | nil => simp [eqEach]
    | cons b r => simp at hlen
  | cons a l ih =>
    cases r with
    | nil => simp at hlen
    | cons b r =>
      rw [List.forall₂_cons, ← h, ← ih r (by simpa using hlen)]
      rw [eqEach]
      rcases he : eq a b with e | (_ | _)
      · simp
      · simp
      · simp

/-- A loop over lists of the same length raises only what a comparison raises. -/
theorem eqEach_total {α : Type} {eq : α → α → Except Err Bool} (l r : List α)
    (hlen : l.length = r.length) (h : ∀ a ∈ l, ∀ b ∈ r, ∃ v, eq a b = .ok v) :
    ∃ v, eqEach eq l r = .ok v := by
  induction l generalizing r with
  | nil => exact ⟨true, rfl⟩
  | cons a l ih =>
    cases r with
    | nil => simp at hlen
    | cons b r =>
      obtain ⟨v, hv⟩ := h a (by simp) b (by simp)
      unfold eqEach
      rw [hv]
      cases v
      · exact ⟨false, rfl⟩
      · exact ih r (by simpa using hlen) fun a ha b hb => h a (by simp [ha]) b (by simp [hb])

theorem eqBone_true (a b : Bone F64) : eqBone a b = .ok true ↔ BoneEqual a b := by
  unfold eqBone
  by_cases h1 : a.id = b.id
  · rw [if_neg (not_not.2 h1)]
    by_cases h2 : mat4Eq a.matrix b.matrix = false
    · rw [if_pos h2]
      refine ⟨fun h => (by cases h), fun h => ?_⟩
      have := (mat4Eq_iff _ _).2 h.matrix
      rw [h2] at this
      cases this
    · rw [if_neg h2]
      exact ⟨fun _ => ⟨h1, (mat4Eq_iff _ _).1 (by simpa using h2)⟩, fun _ => rfl⟩
  · rw [if_pos h1]
    exact ⟨fun h => (by cases h), fun h => absurd h.id h1⟩

theorem eqRig_true (a b : Rig F64) (hl : a.bonenum = b.bonenum → a.bones.length = b.bones.length) :
    eqRig a b = .ok true ↔ RigEqual a b := by
  unfold eqRig
  by_cases h1 : a.bonenum = b.bonenum
  · rw [if_neg (not_not.2 h1), eqEach_true eqBone_true _ _ (hl h1)]
    exact ⟨fun h => ⟨h1, h⟩, fun h => h.bones⟩
  · rw [if_pos h1]
    exact ⟨fun h => (by cases h), fun h => absurd h.bonenum h1⟩

theorem eqRig_total (a b : Rig F64)
    (hl : a.bonenum = b.bonenum → a.bones.length = b.bones.length) : ∃ v, eqRig a b = .ok v := by
  unfold eqRig
  by_cases h1 : a.bonenum = b.bonenum
  · rw [if_neg (not_not.2 h1)]
    refine eqEach_total _ _ (hl h1) fun x _ y _ => ?_
    unfold eqBone
    split
    · exact ⟨_, rfl⟩
    · split <;> exact ⟨_, rfl⟩
  · rw [if_pos h1]
    exact ⟨_, rfl⟩

/-- `eqEach_true` where the comparison is characterised on the elements only. -/
theorem eqEach_true_mem {α : Type} {eq : α → α → Except Err Bool} {R : α → α → Prop}
    (l r : List α) (h : ∀ a ∈ l, ∀ b ∈ r, eq a b = .ok true ↔ R a b) (hlen : l.length = r.length) :
    eqEach eq l r = .ok true ↔ List.Forall₂ R l r := by
  induction l generalizing r with
  | nil =>
    cases r with
    | nil => simp [eqEach]
    | cons b r => simp at hlen
  | cons a l ih =>
    cases r with
    | nil => simp at hlen
    | cons b r =>
      rw [List.forall₂_cons, ← h a (by simp) b (by simp),
        ← ih r (fun a ha b hb => h a (by simp [ha]) b (by simp [hb])) (by simpa using hlen)]
      rw [eqEach]
      rcases he : eq a b with e | (_ | _)
      · simp
      · simp
      · simp

theorem numsEq_refl {l : List F64} (h : ∀ x ∈ l, x.isNaN = false) : NumsEq l l := by
  rw [NumsEq, List.forall₂_same]
  intro x hx
  rw [← feq_iff]
  have := h x hx
  simp [F64.feq, this]

/-- The nodes of two well-formed lods of the same kind have the same number when the counts agree. -/
theorem nodes_length {k : Kind} {v v' : Int} {a b : Lod F64} (ha : LodNodesWF k v a)
    (hb : LodNodesWF k v' b) (h : a.nodenum = b.nodenum) : a.nodes.length = b.nodes.length := by
  rw [ha.nodes, hb.nodes, h]

/-- Lists are as long as each other wherever the counts agree. -/
structure SameShape (a b : Lod F64) : Prop where
  rigs : a.rignum = b.rignum → a.rigs.length = b.rigs.length
  bones : ∀ r ∈ a.rigs, ∀ s ∈ b.rigs, r.bonenum = s.bonenum → r.bones.length = s.bones.length
  nodes : a.nodenum = b.nodenum → a.nodes.length = b.nodes.length
  materials : a.matnum = b.matnum → a.materials.length = b.materials.length

theorem seq_true {x y : Except Err Bool} :
    (match x with
    | .error e => (.error e : Except Err Bool)
    | .ok false => .ok false
    | .ok true => y) = .ok true ↔ x = .ok true ∧ y = .ok true := by
  rcases x with e | (_ | _) <;> simp

theorem eqLodMats_true (a b : Lod F64) (h : SameShape a b) : eqLodMats a b = .ok true ↔
    a.matnum = b.matnum ∧ List.Forall₂ MatEqual a.materials b.materials := by
  unfold eqLodMats
  rw [guard_true, not_not]
  exact and_congr_right fun hn => eqEach_true eqMat_true _ _ (h.materials hn)

theorem eqLodNodes_true (a b : Lod F64) (h : SameShape a b) : eqLodNodes a b = .ok true ↔
    a.nodenum = b.nodenum ∧
    List.Forall₂ (fun x y : Mat4 F64 => NumsEq x.floats y.floats) a.nodes b.nodes ∧
    a.matnum = b.matnum ∧ List.Forall₂ MatEqual a.materials b.materials := by
  unfold eqLodNodes
  rw [guard_true, not_not, ← eqLodMats_true a b h]
  refine and_congr_right fun hn => ?_
  rw [← eqEach_true (eq := fun x y => .ok (mat4Eq x y)) (by simp [mat4Eq_iff]) _ _ (h.nodes hn)]
  rcases eqEach (fun x y => .ok (mat4Eq x y)) a.nodes b.nodes with e | (_ | _) <;> simp

theorem eqLodRigs_true (a b : Lod F64) (h : SameShape a b) : eqLodRigs a b = .ok true ↔
    a.rignum = b.rignum ∧ List.Forall₂ RigEqual a.rigs b.rigs ∧ eqLodNodes a b = .ok true := by
  unfold eqLodRigs
  rw [guard_true, not_not]
  refine and_congr_right fun hn => ?_
  rw [← eqEach_true_mem (eq := eqRig) a.rigs b.rigs
    (fun r hr s hs => eqRig_true r s (h.bones r hr s hs)) (h.rigs hn)]
  rcases eqEach eqRig a.rigs b.rigs with e | (_ | _) <;> simp

theorem eqLod_true (a b : Lod F64) (h : SameShape a b) :
    eqLod a b = .ok true ↔ LodEqual a b := by
  have h0 : eqLod a b = .ok true ↔ NumsEq a.min.floats b.min.floats ∧
      NumsEq a.max.floats b.max.floats ∧ NumsEq (optFloats a.pivot) (optFloats b.pivot) ∧
      eqLodRigs a b = .ok true := by
    unfold eqLod
    rw [guard_true, guard_true, Bool.not_eq_false, Bool.not_eq_false, vec3Eq_iff, vec3Eq_iff,
      ← optVecEq_iff]
    refine and_congr_right fun _ => and_congr_right fun _ => ?_
    cases optVecEq a.pivot b.pivot
    · rw [if_pos rfl]
      rcases unpack6 a.pivot b.pivot with e | l <;> simp
    · simp
  rw [h0, eqLodRigs_true a b h, eqLodNodes_true a b h]
  constructor
  · rintro ⟨h1, h2, h3, h4, h5, h6, h7, h8, h9⟩
    exact ⟨h1, h2, h3, h4, h5, h6, h7, h8, h9⟩
  · rintro ⟨h1, h2, h3, h4, h5, h6, h7, h8, h9⟩
    exact ⟨h1, h2, h3, h4, h5, h6, h7, h8, h9⟩

theorem sameShape_of_wf {k : Kind} {v v' : Int} {a b : Lod F64} (ha : LodNodesWF k v a)
    (hb : LodNodesWF k v' b) (ha' : LodMatsWF k v a) (hb' : LodMatsWF k v' b) : SameShape a b := by
  refine ⟨fun h => by rw [ha.rigs, hb.rigs, h], fun r hr s hs h => ?_, nodes_length ha hb,
    fun h => by rw [ha'.materials, hb'.materials, h]⟩
  rw [ha.bones r hr, hb.bones s hs, h]

/-- `'%d'` fails at the first float that is not finite. -/
theorem fmtAll_some (l : List F64) (e : Err) : fmtAll l = some e ↔
    ∃ pre x post, l = pre ++ x :: post ∧ (∀ y ∈ pre, F64.isFin y = true) ∧
      ((F64.isNaN x = true ∧ e = .valueError) ∨ (F64.isInf x = true ∧ e = .overflowError)) := by
  induction l with
  | nil => simp [fmtAll]
  | cons x l ih =>
    by_cases hx : x.isFin = true
    · have hf : fmtAll (x :: l) = fmtAll l := by
        have : fmtD x = none := by
          simp only [F64.isFin, decide_eq_true_eq] at hx
          unfold fmtD F64.isNaN F64.isInf
          rw [if_neg (by simp only [decide_eq_true_eq]; omega),
            if_neg (by simp only [decide_eq_true_eq]; omega)]
        rw [fmtAll, this]
      rw [hf, ih]
      constructor
      · rintro ⟨pre, y, post, rfl, h1, h2⟩
        exact ⟨x :: pre, y, post, rfl, by simpa [hx] using h1, h2⟩
      · rintro ⟨pre, y, post, h, h1, h2⟩
        cases pre with
        | nil =>
          injection h with h3 h4
          subst h3
          simp only [F64.isFin, F64.isNaN, F64.isInf, decide_eq_true_eq] at hx h2
          omega
        | cons z pre =>
          injection h with h3 h4
          exact ⟨pre, y, post, h4, fun w hw => h1 w (by simp [hw]), h2⟩
    · have hx' : x.isNaN = true ∨ (x.isNaN = false ∧ x.isInf = true) := by
        simp only [F64.isFin, F64.isNaN, F64.isInf, decide_eq_true_eq,
          decide_eq_false_iff_not] at hx ⊢
        omega
      have hf : fmtAll (x :: l) = fmtD x := by
        rw [fmtAll]
        rcases hx' with h | ⟨h, h'⟩
        · simp [fmtD, h]
        · simp [fmtD, h, h']
      rw [hf]
      constructor
      · intro h
        refine ⟨[], x, l, rfl, by simp, ?_⟩
        rcases hx' with h1 | ⟨h1, h2⟩
        · exact Or.inl ⟨h1, by simpa [fmtD, h1] using h.symm⟩
        · exact Or.inr ⟨h2, by simpa [fmtD, h1, h2] using h.symm⟩
      · rintro ⟨pre, y, post, h, h1, h2⟩
        cases pre with
        | cons z pre =>
          injection h with h3 h4
          exact absurd (h3 ▸ h1 z (by simp)) hx
        | nil =>
          injection h with h3 h4
          subst h3
          rcases h2 with ⟨h2, rfl⟩ | ⟨h2, rfl⟩
          · simp [fmtD, h2]
          · rcases hx' with h3 | ⟨h3, h4⟩
            · simp only [F64.isNaN, F64.isInf, decide_eq_true_eq] at h2 h3
              omega
            · simp [fmtD, h3, h2]

/-- Comparison never raises for well-formed lods of the same kind and version with finite material
bounds. -/
theorem eqLod_total {k : Kind} {v : Int} {a b : Lod F64} (ha : LodNodesWF k v a)
    (hb : LodNodesWF k v b) (ha' : LodMatsWF k v a) (hb' : LodMatsWF k v b)
    (hfa : ∀ m ∈ a.materials, ∀ x ∈ optFloats m.mmin, F64.isFin x = true)
    (hfb : ∀ m ∈ b.materials, ∀ x ∈ optFloats m.mmin, F64.isFin x = true) :
    ∃ r, eqLod a b = .ok r := by
  have hs := sameShape_of_wf ha hb ha' hb'
  have hm : ∃ r, eqLodMats a b = .ok r := by
    unfold eqLodMats
    split
    · exact ⟨_, rfl⟩
    · rename_i hn
      refine eqEach_total _ _ (hs.materials (not_not.1 hn)) fun x hx y hy => ?_
      rcases he : eqMat x y with e | r
      · exfalso
        obtain ⟨-, hne, he⟩ := (eqMat_error x y e).1 he
        have hx1 := (ha'.each x hx).mmin
        have hy1 := (hb'.each y hy).mmin
        have hx2 := hfa x hx
        have hy2 := hfb y hy
        unfold boundsErr at he
        rcases hxm : x.mmin with _ | p <;> rcases hym : y.mmin with _ | q <;>
          rw [hxm, hym] at he <;> rw [hxm] at hx1 hx2 <;> rw [hym] at hy1 hy2
        · rw [hxm, hym] at hne
          exact hne List.Forall₂.nil
        · rw [← hx1] at hy1; cases hy1
        · rw [← hy1] at hx1; cases hx1
        · have : fmtAll [p.x, p.y, p.z, q.x, q.y, q.z] = none := by
            apply fmtAll_none
            intro z hz
            simp only [optFloats, Vec3.floats, List.mem_cons, List.not_mem_nil, or_false] at hx2 hy2 hz
            rcases hz with h | h | h | h | h | h
            · exact hx2 z (by simp [h])
            · exact hx2 z (by simp [h])
            · exact hx2 z (by simp [h])
            · exact hy2 z (by simp [h])
            · exact hy2 z (by simp [h])
            · exact hy2 z (by simp [h])
          simp [unpack6, this] at he
      · exact ⟨r, rfl⟩
  have hn : ∃ r, eqLodNodes a b = .ok r := by
    unfold eqLodNodes
    split
    · exact ⟨_, rfl⟩
    · rename_i hn
      obtain ⟨r, hr⟩ := eqEach_total (eq := fun x y => .ok (mat4Eq x y)) a.nodes b.nodes
        (hs.nodes (not_not.1 hn)) fun x _ y _ => ⟨_, rfl⟩
      rw [hr]
      cases r
      · exact ⟨_, rfl⟩
      · exact hm
  have hr : ∃ r, eqLodRigs a b = .ok r := by
    unfold eqLodRigs
    split
    · exact ⟨_, rfl⟩
    · rename_i hn'
      obtain ⟨r, hr⟩ := eqEach_total (eq := eqRig) a.rigs b.rigs
        (hs.rigs (not_not.1 hn')) fun x hx y hy => eqRig_total x y (hs.bones x hx y hy)
      rw [hr]
      cases r
      · exact ⟨_, rfl⟩
      · exact hn
  unfold eqLod
  split
  · exact ⟨_, rfl⟩
  split
  · exact ⟨_, rfl⟩
  split
  · rename_i h
    have h1 := ha.pivot
    have h2 := hb.pivot
    rcases hp : a.pivot with _ | p <;> rcases hq : b.pivot with _ | q <;>
      rw [hp, hq] at h <;> rw [hp] at h1 <;> rw [hq] at h2
    · simp [optVecEq] at h
    · rw [← h1] at h2; cases h2
    · rw [← h2] at h1; cases h1
    · exact ⟨_, rfl⟩
  · exact hr

theorem numsEq_map (f : F64 → F64) (l : List F64) :
    NumsEq l (l.map f) ↔ ∀ x ∈ l, NumEq x (f x) := by
  rw [NumsEq, List.forall₂_map_right_iff, List.forall₂_same]

theorem numsEq_map_floats3 (f : F64 → F64) (v : Vec3 F64) :
    NumsEq v.floats (v.map f).floats ↔ ∀ x ∈ v.floats, NumEq x (f x) := numsEq_map f v.floats

theorem numsEq_map_opt (f : F64 → F64) (v : Option (Vec3 F64)) :
    NumsEq (optFloats v) (optFloats (v.map (Vec3.map f))) ↔ ∀ x ∈ optFloats v, NumEq x (f x) := by
  cases v
  · simp [optFloats]
  · exact numsEq_map_floats3 f _

theorem numsEq_map_mat (f : F64 → F64) (m : Mat4 F64) :
    NumsEq m.floats (m.map f).floats ↔ ∀ x ∈ m.floats, NumEq x (f x) := numsEq_map f m.floats

/-- A lod equals its image under a change of floats when no float it compares changes. -/
theorem lodEqual_map (f : F64 → F64) (l : Lod F64) : LodEqual l (l.map f) ↔
    (∀ x ∈ l.nodeFloats, NumEq x (f x)) ∧
    ∀ m ∈ l.materials, ∀ x ∈ optFloats m.mmin, NumEq x (f x) := by
  have hb : ∀ b : Bone F64, BoneEqual b (b.map f) ↔ ∀ x ∈ b.matrix.floats, NumEq x (f x) := by
    intro b
    rw [← numsEq_map_mat]
    exact ⟨fun h => h.matrix, fun h => ⟨rfl, h⟩⟩
  have hr : ∀ r : Rig F64, RigEqual r (r.map f) ↔
      ∀ b ∈ r.bones, ∀ x ∈ b.matrix.floats, NumEq x (f x) := by
    intro r
    have : List.Forall₂ BoneEqual r.bones (r.map f).bones ↔
        ∀ b ∈ r.bones, ∀ x ∈ b.matrix.floats, NumEq x (f x) := by
      rw [Rig.map, List.forall₂_map_right_iff, List.forall₂_same]
      exact forall₂_congr fun b _ => hb b
    rw [← this]
    exact ⟨fun h => h.bones, fun h => ⟨rfl, h⟩⟩
  have hm : ∀ m : Mat F64, MatEqual m (m.map f) ↔ ∀ x ∈ optFloats m.mmin, NumEq x (f x) := by
    intro m
    rw [← numsEq_map_opt]
    exact ⟨fun h => h.mmin, fun h => ⟨rfl, rfl, rfl, rfl, rfl, rfl, rfl, rfl, rfl, rfl, rfl, h⟩⟩
  constructor
  · rintro ⟨h1, h2, h3, -, h5, -, h7, -, h9⟩
    constructor
    · intro x hx
      simp only [Lod.nodeFloats, List.mem_append, List.mem_flatMap] at hx
      rcases hx with (((h | h) | h) | ⟨r, hr1, b, hb1, h⟩) | ⟨m, hm1, h⟩
      · exact (numsEq_map_floats3 f _).1 h1 x h
      · exact (numsEq_map_floats3 f _).1 h2 x h
      · exact (numsEq_map_opt f _).1 h3 x h
      · rw [Lod.map, List.forall₂_map_right_iff, List.forall₂_same] at h5
        exact (hr r).1 (h5 r hr1) b hb1 x h
      · rw [Lod.map, List.forall₂_map_right_iff, List.forall₂_same] at h7
        exact (numsEq_map_mat f m).1 (h7 m hm1) x h
    · intro m hm1
      rw [Lod.map, List.forall₂_map_right_iff, List.forall₂_same] at h9
      exact (hm m).1 (h9 m hm1)
  · rintro ⟨h, h'⟩
    simp only [Lod.nodeFloats, List.mem_append, List.mem_flatMap] at h
    refine ⟨(numsEq_map_floats3 f _).2 fun x hx => h x (by simp [hx]),
      (numsEq_map_floats3 f _).2 fun x hx => h x (by simp [hx]),
      (numsEq_map_opt f _).2 fun x hx => h x (by simp [hx]), rfl, ?_, rfl, ?_, rfl, ?_⟩
    · rw [Lod.map, List.forall₂_map_right_iff, List.forall₂_same]
      exact fun r hr1 => (hr r).2 fun b hb1 x hx => h x (Or.inl (Or.inr ⟨r, hr1, b, hb1, hx⟩))
    · rw [Lod.map, List.forall₂_map_right_iff, List.forall₂_same]
      exact fun m hm1 => (numsEq_map_mat f m).2 fun x hx => h x (Or.inr ⟨m, hm1, hx⟩)
    · rw [Lod.map, List.forall₂_map_right_iff, List.forall₂_same]
      exact fun m hm1 => (hm m).2 (h' m hm1)

theorem eqLod_map (f : F64 → F64) (l : Lod F64)
    (hb : ∀ r ∈ l.rigs, r.bones.length = r.bonenum.toNat) : eqLod l (l.map f) = .ok true ↔
    (∀ x ∈ l.nodeFloats, NumEq x (f x)) ∧
    ∀ m ∈ l.materials, ∀ x ∈ optFloats m.mmin, NumEq x (f x) := by
  rw [eqLod_true, lodEqual_map]
  refine ⟨fun _ => by simp [Lod.map], fun r hr s hs h => ?_, fun _ => by simp [Lod.map],
    fun _ => by simp [Lod.map]⟩
  simp only [Lod.map, List.mem_map] at hs
  obtain ⟨t, ht, rfl⟩ := hs
  rw [hb r hr, h]
  simp only [Rig.map, List.length_map]
  exact (hb t ht).symm

theorem numEq_self (x : F64) : NumEq x x ↔ x.isNaN = false := by
  rw [← feq_iff]
  simp [F64.feq]

/-- A double read from a file is written and read back unchanged. -/
theorem unpackF_packF_unpackF (w : BitVec 32) : unpackF (packF (unpackF w)) = unpackF w := by
  rw [packF_unpackF]
  have hlt := w.isLt
  have hq := quieted_toNat w
  by_cases hs : SNaN w
  · rw [if_pos hs] at hq
    have hs' := (SNaN_iff w).1 hs
    have h1 : (unpackF (quieted w)).neg = (unpackF w).neg := by
      rw [unpackF_neg, unpackF_neg, hq]
      simp only [decide_eq_decide]
      simp only [inf32] at hs'
      omega
    have h2 : (unpackF (quieted w)).mag = (unpackF w).mag := by
      rw [unpackF_mag, unpackF_mag, hq]
      unfold unpackMag
      simp only [inf32] at hs'
      rw [if_neg (by simp only [inf32]; omega), if_neg (by simp only [inf32]; omega),
        if_neg (by omega), if_neg (by simp only [inf32]; omega),
        if_neg (by simp only [inf32]; omega), if_pos hs'.2]
      simp only [inf32, inf64]
      omega
    revert h1 h2
    generalize unpackF (quieted w) = x
    generalize unpackF w = y
    obtain ⟨⟩ := x
    obtain ⟨⟩ := y
    rintro h1 h2
    simp only at h1 h2
    subst h1 h2
    rfl
  · rw [quieted_of_not hs]

end Bf2
