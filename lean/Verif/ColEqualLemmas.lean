import Verif.ColEqualSpec
import Verif.EqualLemmas

/-! # Comparing collision meshes -/

namespace Bf2

theorem eqFace_true (a b : ColFace) : eqFace a b = .ok true ↔ FaceEqual a b := by
  unfold eqFace FaceEqual SameCorners
  split
  · next h =>
    rcases ha : a.m with _ | x <;> rcases hb : b.m with _ | y <;> simp [h]
    exact eq_comm
  · next h => simp [h]

theorem eqFace_error (a b : ColFace) (e : Err) : eqFace a b = .error e ↔
    e = .attributeError ∧ SameCorners a b ∧ (a.m = none ∨ b.m = none) := by
  unfold eqFace SameCorners
  split
  · next h =>
    rcases ha : a.m with _ | x <;> rcases hb : b.m with _ | y <;> simp [h, eq_comm]
  · next h => simp [h]

theorem listEq_true {α : Type} {eq : α → α → Except Err Bool} {R : α → α → Prop}
    (h : ∀ a b, eq a b = .ok true ↔ R a b) (l r : List α) :
    listEq eq l r = .ok true ↔ List.Forall₂ R l r := by
  unfold listEq
  split
  · next hl =>
    refine ⟨fun h => (by cases h), fun h => absurd h.length_eq hl⟩
  · next hl => exact eqEach_true h l r (not_not.1 hl)

theorem listEqB_true {α : Type} {eq : α → α → Bool} {R : α → α → Prop}
    (h : ∀ a b, eq a b = true ↔ R a b) (l r : List α) :
    listEqB eq l r = true ↔ List.Forall₂ R l r := by
  induction l generalizing r with
  | nil => cases r <;> simp [listEqB]
  | cons x l ih =>
    cases r with
    | nil => simp [listEqB]
    | cons y r => simp [listEqB, h, ih]

/-- Where the loop raises: at a pair that raises, after pairs that are equal. -/
theorem eqEach_error {α : Type} {eq : α → α → Except Err Bool} (l r : List α)
    (hlen : l.length = r.length) (e : Err) : eqEach eq l r = .error e ↔
    ∃ (i : Nat) (x y : α), l[i]? = some x ∧ r[i]? = some y ∧ eq x y = .error e ∧
      ∀ j < i, ∀ x y, l[j]? = some x → r[j]? = some y → eq x y = .ok true := by
  induction l generalizing r with
  | nil => simp [eqEach]
  | cons a l ih =>
    cases r with
    | nil => simp at hlen
    | cons b r =>
      have ih := ih r (by simpa using hlen)
      rw [eqEach]
      constructor
      · intro h
        rcases he : eq a b with e' | (_ | _)
        · rw [he] at h
          cases h
          exact ⟨0, a, b, rfl, rfl, he, fun j hj => absurd hj (by omega)⟩
        · rw [he] at h; cases h
        · rw [he] at h
          obtain ⟨i, x, y, h1, h2, h3, h4⟩ := ih.1 h
          refine ⟨i + 1, x, y, by simpa using h1, by simpa using h2, h3, ?_⟩
          rintro (_ | j) hj x y hx hy
          · simp only [List.getElem?_cons_zero, Option.some.injEq] at hx hy
            rw [← hx, ← hy, he]
          · exact h4 j (by omega) x y (by simpa using hx) (by simpa using hy)
      · rintro ⟨_ | i, x, y, h1, h2, h3, h4⟩
        · simp only [List.getElem?_cons_zero, Option.some.injEq] at h1 h2
          rw [h1, h2, h3]
        · rw [h4 0 (by omega) a b rfl rfl]
          exact ih.2 ⟨i, x, y, by simpa using h1, by simpa using h2, h3, fun j hj x y hx hy =>
            h4 (j + 1) (by omega) x y (by simpa using hx) (by simpa using hy)⟩

theorem listEq_error {α : Type} {eq : α → α → Except Err Bool} (l r : List α) (e : Err) :
    listEq eq l r = .error e ↔ l.length = r.length ∧
    ∃ (i : Nat) (x y : α), l[i]? = some x ∧ r[i]? = some y ∧ eq x y = .error e ∧
      ∀ j < i, ∀ x y, l[j]? = some x → r[j]? = some y → eq x y = .ok true := by
  unfold listEq
  split
  · next hl => simp [hl]
  · next hl =>
    have hl := not_not.1 hl
    rw [eqEach_error l r hl]
    simp [hl]

theorem listEq_total {α : Type} {eq : α → α → Except Err Bool} (l r : List α)
    (h : ∀ a ∈ l, ∀ b ∈ r, ∃ v, eq a b = .ok v) : ∃ v, listEq eq l r = .ok v := by
  unfold listEq
  split
  · exact ⟨_, rfl⟩
  · next hl => exact eqEach_total l r (not_not.1 hl) h

theorem eqY_true (a b : ColY F64) : eqY a b = true ↔ YEqual a b := by
  simp only [eqY, Bool.and_eq_true, feq_iff, beq_iff_eq]
  exact ⟨fun ⟨⟨⟨⟨h1, h2⟩, h3⟩, h4⟩, h5⟩ => ⟨h1, h2, h3, h4, h5⟩,
    fun ⟨h1, h2, h3, h4, h5⟩ => ⟨⟨⟨⟨h1, h2⟩, h3⟩, h4⟩, h5⟩⟩

theorem eqColLod_true (a b : ColLod F64 ColFace) : eqColLod a b = .ok true ↔ ColLodEqual a b := by
  have hf := listEq_true eqFace_true a.faces b.faces
  have : eqColLod a b = .ok true ↔ List.Forall₂ FaceEqual a.faces b.faces ∧ eqLodRest a b = true := by
    rw [← hf]
    unfold eqColLod
    rcases listEq eqFace a.faces b.faces with e | v <;> simp
  rw [this]
  simp only [eqLodRest, Bool.and_eq_true, beq_iff_eq, vec3Eq_iff, listEqB_true vec3Eq_iff,
    listEqB_true eqY_true]
  constructor
  · rintro ⟨hF, ⟨⟨⟨⟨⟨⟨⟨⟨⟨⟨⟨⟨⟨⟨⟨h1, h2⟩, h3⟩, h4⟩, h5⟩, h6⟩, h7⟩, h8⟩, h9⟩, h10⟩, h11⟩, h12⟩, h13⟩, h14⟩,
      h15⟩, h16⟩⟩
    exact ⟨h1, h2, hF, h3, h4, h5, h6, h7, h8, h9, h10, h11, h12, h13, h14, h15, h16⟩
  · rintro ⟨h1, h2, hF, h3, h4, h5, h6, h7, h8, h9, h10, h11, h12, h13, h14, h15, h16⟩
    exact ⟨hF, ⟨⟨⟨⟨⟨⟨⟨⟨⟨⟨⟨⟨⟨⟨⟨h1, h2⟩, h3⟩, h4⟩, h5⟩, h6⟩, h7⟩, h8⟩, h9⟩, h10⟩, h11⟩, h12⟩, h13⟩, h14⟩,
      h15⟩, h16⟩⟩

theorem eqColSub_true (a b : ColSub F64 ColFace) : eqColSub a b = .ok true ↔ ColSubEqual a b := by
  have hf := listEq_true eqColLod_true a.lods b.lods
  have : eqColSub a b = .ok true ↔ a.lodnum = b.lodnum ∧ List.Forall₂ ColLodEqual a.lods b.lods := by
    rw [← hf]
    unfold eqColSub
    rcases listEq eqColLod a.lods b.lods with e | v <;> simp
  rw [this]
  exact ⟨fun ⟨h1, h2⟩ => ⟨h1, h2⟩, fun ⟨h1, h2⟩ => ⟨h1, h2⟩⟩

theorem eqColGeom_true (a b : ColGeom F64 ColFace) :
    eqColGeom a b = .ok true ↔ ColGeomEqual a b := by
  have hf := listEq_true eqColSub_true a.subgeoms b.subgeoms
  have : eqColGeom a b = .ok true ↔
      a.subgeomnum = b.subgeomnum ∧ List.Forall₂ ColSubEqual a.subgeoms b.subgeoms := by
    rw [← hf]
    unfold eqColGeom
    rcases listEq eqColSub a.subgeoms b.subgeoms with e | v <;> simp
  rw [this]
  exact ⟨fun ⟨h1, h2⟩ => ⟨h1, h2⟩, fun ⟨h1, h2⟩ => ⟨h1, h2⟩⟩

theorem eqColLod_error (a b : ColLod F64 ColFace) (e : Err) :
    eqColLod a b = .error e ↔ listEq eqFace a.faces b.faces = .error e := by
  unfold eqColLod
  rcases listEq eqFace a.faces b.faces with e | v <;> simp

/-- No comparison of geoms raises when every face has the attribute `m`. -/
theorem eqColGeom_total (a b : ColGeom F64 ColFace)
    (ha : ∀ s ∈ a.subgeoms, ∀ l ∈ s.lods, ∀ f ∈ l.faces, ∃ n, f.m = some n)
    (hb : ∀ s ∈ b.subgeoms, ∀ l ∈ s.lods, ∀ f ∈ l.faces, ∃ n, f.m = some n) :
    ∃ v, eqColGeom a b = .ok v := by
  have hl : ∀ s ∈ a.subgeoms, ∀ t ∈ b.subgeoms, ∀ l ∈ s.lods, ∀ r ∈ t.lods,
      ∃ v, eqColLod l r = .ok v := by
    intro s hs t ht l hl r hr
    have : ∃ v, listEq eqFace l.faces r.faces = .ok v := by
      refine listEq_total _ _ fun f hf g hg => ?_
      obtain ⟨n, hn⟩ := ha s hs l hl f hf
      obtain ⟨n', hn'⟩ := hb t ht r hr g hg
      unfold eqFace
      split
      · rw [hn, hn']; exact ⟨_, rfl⟩
      · exact ⟨_, rfl⟩
    obtain ⟨v, hv⟩ := this
    unfold eqColLod
    rw [hv]
    exact ⟨_, rfl⟩
  have hS : ∃ v, listEq eqColSub a.subgeoms b.subgeoms = .ok v := by
    refine listEq_total _ _ fun s hs t ht => ?_
    obtain ⟨v, hv⟩ := listEq_total s.lods t.lods (hl s hs t ht)
    unfold eqColSub
    rw [hv]
    exact ⟨_, rfl⟩
  obtain ⟨v, hv⟩ := hS
  unfold eqColGeom
  rw [hv]
  exact ⟨_, rfl⟩

/-- A lod equals its image under changes of floats and faces when none of them changes. -/
theorem colLodEqual_map (f : F64 → F64) (g : ColFace → ColFace) (l : ColLod F64 ColFace) :
    ColLodEqual l (l.map f g) ↔
      (∀ x ∈ l.faces, FaceEqual x (g x)) ∧ ∀ x ∈ l.floats, NumEq x (f x) := by
  have hy : ∀ y : ColY F64, YEqual y (y.map f) ↔ NumEq y.u1 (f y.u1) := fun y =>
    ⟨fun h => h.u1, fun h => ⟨h, rfl, rfl, rfl, rfl⟩⟩
  have h1 : List.Forall₂ FaceEqual l.faces (l.map f g).faces ↔ ∀ x ∈ l.faces, FaceEqual x (g x) := by
    rw [ColLod.map, List.forall₂_map_right_iff, List.forall₂_same]
  have h2 : List.Forall₂ (fun v w : Vec3 F64 => NumsEq v.floats w.floats) l.vertices
      (l.map f g).vertices ↔ ∀ v ∈ l.vertices, ∀ x ∈ v.floats, NumEq x (f x) := by
    rw [ColLod.map, List.forall₂_map_right_iff, List.forall₂_same]
    exact forall₂_congr fun v _ => numsEq_map_floats3 f v
  have h3 : List.Forall₂ YEqual l.ydata (l.map f g).ydata ↔ ∀ y ∈ l.ydata, NumEq y.u1 (f y.u1) := by
    rw [ColLod.map, List.forall₂_map_right_iff, List.forall₂_same]
    exact forall₂_congr fun y _ => hy y
  have key : ColLodEqual l (l.map f g) ↔ (∀ x ∈ l.faces, FaceEqual x (g x)) ∧
      (∀ v ∈ l.vertices, ∀ x ∈ v.floats, NumEq x (f x)) ∧ (∀ x ∈ l.min.floats, NumEq x (f x)) ∧
      (∀ x ∈ l.max.floats, NumEq x (f x)) ∧ (∀ x ∈ l.bmin.floats, NumEq x (f x)) ∧
      (∀ x ∈ l.bmax.floats, NumEq x (f x)) ∧ ∀ y ∈ l.ydata, NumEq y.u1 (f y.u1) := by
    rw [← h1, ← h2, ← h3]
    simp only [← numsEq_map_floats3]
    exact ⟨fun h => ⟨h.faces, h.vertices, h.min, h.max, h.bmin, h.bmax, h.ydata⟩,
      fun ⟨h1, h2, h3, h4, h5, h6, h7⟩ => ⟨rfl, rfl, h1, rfl, h2, rfl, h3, h4, rfl, h5, h6, rfl, h7, rfl,
        rfl, rfl, rfl⟩⟩
  rw [key]
  refine and_congr_right fun _ => ?_
  simp only [ColLod.floats, List.mem_append, List.mem_flatMap, List.mem_map]
  constructor
  · rintro ⟨h1, h2, h3, h4, h5, h6⟩ x (((((⟨v, hv, h⟩ | h) | h) | h) | h) | ⟨y, hy, rfl⟩)
    · exact h1 v hv x h
    · exact h2 x h
    · exact h3 x h
    · exact h4 x h
    · exact h5 x h
    · exact h6 y hy
  · intro h
    refine ⟨fun v hv x hx => h x ?_, fun x hx => h x ?_, fun x hx => h x ?_, fun x hx => h x ?_,
      fun x hx => h x ?_, fun y hy => h _ ?_⟩
    · exact Or.inl (Or.inl (Or.inl (Or.inl (Or.inl ⟨v, hv, hx⟩))))
    · exact Or.inl (Or.inl (Or.inl (Or.inl (Or.inr hx))))
    · exact Or.inl (Or.inl (Or.inl (Or.inr hx)))
    · exact Or.inl (Or.inl (Or.inr hx))
    · exact Or.inl (Or.inr hx)
    · exact Or.inr ⟨y, hy, rfl⟩

theorem colGeomEqual_map (f : F64 → F64) (g : ColFace → ColFace) (x : ColGeom F64 ColFace) :
    ColGeomEqual x (x.map f g) ↔ ∀ s ∈ x.subgeoms, ∀ l ∈ s.lods,
      (∀ x ∈ l.faces, FaceEqual x (g x)) ∧ ∀ x ∈ l.floats, NumEq x (f x) := by
  have hs : ∀ s : ColSub F64 ColFace, ColSubEqual s (s.map f g) ↔ ∀ l ∈ s.lods,
      (∀ x ∈ l.faces, FaceEqual x (g x)) ∧ ∀ x ∈ l.floats, NumEq x (f x) := by
    intro s
    have : List.Forall₂ ColLodEqual s.lods (s.map f g).lods ↔ ∀ l ∈ s.lods,
        (∀ x ∈ l.faces, FaceEqual x (g x)) ∧ ∀ x ∈ l.floats, NumEq x (f x) := by
      rw [ColSub.map, List.forall₂_map_right_iff, List.forall₂_same]
      exact forall₂_congr fun l _ => colLodEqual_map f g l
    rw [← this]
    exact ⟨fun h => h.lods, fun h => ⟨rfl, h⟩⟩
  have : List.Forall₂ ColSubEqual x.subgeoms (x.map f g).subgeoms ↔ ∀ s ∈ x.subgeoms,
      ∀ l ∈ s.lods, (∀ x ∈ l.faces, FaceEqual x (g x)) ∧ ∀ x ∈ l.floats, NumEq x (f x) := by
    rw [ColGeom.map, List.forall₂_map_right_iff, List.forall₂_same]
    exact forall₂_congr fun s _ => hs s
  rw [← this]
  exact ⟨fun h => h.subgeoms, fun h => ⟨rfl, h⟩⟩

end Bf2
