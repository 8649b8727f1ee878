import Verif.EditLemmas

/-! # Lemmas about tilings and `translate` -/

namespace Bf2

variable {F : Type}

/-! ## Tiled vertex arrays -/

theorem sum_take_succ {l : List (Mat F)} {f : Mat F → Int} {i : Nat} {a : Mat F}
    (h : l[i]? = some a) : ((l.take (i + 1)).map f).sum = ((l.take i).map f).sum + f a := by
  rw [List.take_add_one, h]; simp

theorem sum_take_le {l : List (Mat F)} {f : Mat F → Int} (h : ∀ a ∈ l, 0 ≤ f a) (i : Nat) :
    0 ≤ ((l.take i).map f).sum ∧ ((l.take i).map f).sum ≤ (l.map f).sum := by
  constructor
  · exact sum_nonneg fun a ha => h a (List.mem_of_mem_take ha)
  · conv => rhs; rw [← List.take_append_drop i l, List.map_append, List.sum_append]
    have := sum_nonneg (l := l.drop i) (f := f) fun a ha => h a (List.mem_of_mem_drop ha)
    omega

theorem TiledVerts.inside {vs : Nat} {m : Mesh F} (h : TiledVerts vs m) :
    ∀ a ∈ m.mats, VertsInside vs m a := by
  intro a ha
  obtain ⟨i, hi⟩ := List.mem_iff_getElem?.1 ha
  have h1 := h.start i a hi
  have h2 := sum_take_le h.nonneg i
  have h3 := sum_take_le h.nonneg (i + 1)
  rw [sum_take_succ hi] at h3
  refine ⟨by omega, h.nonneg a ha, ?_⟩
  rw [h.total]
  exact Int.mul_le_mul_of_nonneg_right (by omega) (by omega)

theorem TiledIndex.inside {m : Mesh F} (h : TiledIndex m) : ∀ a ∈ m.mats, IndexInside m a := by
  intro a ha
  obtain ⟨i, hi⟩ := List.mem_iff_getElem?.1 ha
  have h1 := h.start i a hi
  have h2 := sum_take_le h.nonneg i
  have h3 := sum_take_le h.nonneg (i + 1)
  rw [sum_take_succ hi] at h3
  refine ⟨by omega, h.nonneg a ha, ?_⟩
  rw [h.total]; omega

theorem starts_of {l : List (Mat F)} {f g : Mat F → Int}
    (h : l.map f = (List.range l.length).map fun i => ((l.take i).map g).sum) :
    ∀ (i : Nat) (a : Mat F), l[i]? = some a → f a = ((l.take i).map g).sum := by
  intro i a hi
  have hl := (List.getElem?_eq_some_iff.1 hi).1
  have := congrArg (fun l => l[i]?) h
  simp only [List.getElem?_map, hi, List.getElem?_range hl, Option.map_some, Option.some.injEq]
    at this
  exact this

/-- Consecutive blocks up to the end of a list are the rest of the list. -/
theorem blocks_drop {α : Type} (l : List α) (k : Nat) (start num : Mat F → Int) (ms : List (Mat F))
    (s : Int) (hs : 0 ≤ s) (hn : ∀ a ∈ ms, 0 ≤ num a)
    (ht : ∀ (i : Nat) (a : Mat F), ms[i]? = some a → start a = s + ((ms.take i).map num).sum)
    (he : (l.length : Int) = (s + (ms.map num).sum) * k) :
    ms.flatMap (fun a => block l (start a * k) (num a * k)) = l.drop (s * k).toNat := by
  induction ms generalizing s with
  | nil =>
    simp only [List.map_nil, List.sum_nil, Int.add_zero] at he
    rw [← he]
    simp
  | cons a as ih =>
    have h0 := ht 0 a rfl
    simp only [List.take_zero, List.map_nil, List.sum_nil, Int.add_zero] at h0
    have hna := hn a (by simp)
    rw [List.flatMap_cons, ih (s + num a) (by omega) (fun b hb => hn b (by simp [hb])) ?_ ?_]
    · rw [h0, block]
      have hz1 : 0 ≤ s * k := Int.mul_nonneg hs (by omega)
      have hz2 : 0 ≤ num a * k := Int.mul_nonneg hna (by omega)
      have : ((s + num a) * k).toNat = (s * k).toNat + (num a * k).toNat := by
        rw [Int.add_mul, Int.toNat_add hz1 hz2]
      rw [this, ← List.drop_drop, List.take_append_drop]
    · intro i b hb
      have := ht (i + 1) b (by simpa using hb)
      simp only [List.take_succ_cons, List.map_cons, List.sum_cons] at this
      omega
    · rw [he]
      simp only [List.map_cons, List.sum_cons]
      congr 1; omega

theorem TiledVerts.flat {vs : Nat} {m : Mesh F} (h : TiledVerts vs m) :
    m.mats.flatMap (vertexData vs m) = m.vertices := by
  have := blocks_drop m.vertices vs Mat.vstart Mat.vnum m.mats 0 (by omega) h.nonneg
    (fun i a hi => by rw [h.start i a hi]; omega) (by rw [h.total]; simp)
  rw [show vertexData vs m = fun a => block m.vertices (a.vstart * vs) (a.vnum * vs) from rfl]
  simpa using this

theorem TiledIndex.flat {m : Mesh F} (h : TiledIndex m) :
    m.mats.flatMap (indexData m) = m.index.elems := by
  have := blocks_drop m.index.elems 1 Mat.istart Mat.inum m.mats 0 (by omega) h.nonneg
    (fun i a hi => by rw [h.start i a hi]; omega) (by rw [h.total]; simp)
  rw [show indexData m = fun a => block m.index.elems a.istart a.inum from rfl]
  simpa using this

/-! ## translate -/

theorem posOffset_first {vf : Int} {attrs : List VAttr} {a : VAttr} {o : Nat}
    (h : FirstPosition attrs a) (hs : StartsAt vf a o) : posOffset vf attrs = .ok (some (o : Int)) := by
  obtain ⟨pre, post, rfl, ha, hpre⟩ := h
  induction pre with
  | nil =>
    rw [List.nil_append, posOffset, if_pos ha, attrPos, if_neg hs.1,
      intTrueDiv_exact hs.1 hs.2.1 ?_]
    have := hs.2.2
    rw [abs_of_nonneg (by omega)]
    omega
  | cons b pre ih =>
    rw [List.cons_append, posOffset, if_neg (hpre b (by simp))]
    exact ih fun c hc => hpre c (by simp [hc])

variable [FArith F]

theorem addAll_eq (o : Nat) (d : List F) (k : Nat) (v : List F) (h : o + k + d.length ≤ v.length) :
    addAll (o : Int) k d v = .ok (v.mapIdx (moved (o + k) d)) := by
  induction d generalizing k v with
  | nil =>
    rw [addAll]
    congr 1
    apply List.ext_getElem?
    intro i
    rw [List.getElem?_mapIdx]
    cases v[i]? <;> simp [moved]
  | cons t d ih =>
    rw [List.length_cons] at h
    have hp : pyPos v.length ((o : Int) + k) = some (o + k) := by
      unfold pyPos
      rw [if_neg (show ¬ ((o : Int) + k < 0) by omega)]
      simp only
      rw [if_pos (by omega)]
      congr 1
    rw [addAll, addAt, hp]
    simp only
    rw [ih (k + 1) _ (by rw [List.length_modify]; omega)]
    congr 1
    apply List.ext_getElem?
    intro i
    rw [List.getElem?_mapIdx, List.getElem?_mapIdx, List.getElem?_modify]
    cases v[i]? with
    | none => rfl
    | some x =>
      change some (moved (o + (k + 1)) d i (if o + k = i then FArith.add x t else x)) =
        some (moved (o + k) (t :: d) i x)
      congr 1
      unfold moved
      by_cases h1 : o + k = i
      · subst h1
        rw [if_neg (by omega), if_pos (Nat.le_refl _), if_pos rfl]
        simp
      · by_cases h2 : o + k ≤ i
        · rw [if_pos (by omega), if_pos h2, if_neg h1]
          have : i - (o + k) = (i - (o + (k + 1))) + 1 := by omega
          rw [this, List.getElem?_cons_succ]
        · rw [if_neg (by omega), if_neg h2, if_neg h1]

theorem translateVertex_eq {m : Mesh F} {a : VAttr} {o : Nat} {d v : List F}
    (hp : FirstPosition m.vattrs a) (hs : StartsAt m.vertformat a o) (h : o + d.length ≤ v.length) :
    translateVertex m d v = .ok (v.mapIdx (moved o d)) := by
  unfold translateVertex
  rw [posOffset_first hp hs]
  exact addAll_eq o d 0 v (by omega)

theorem addAll_short (o : Nat) (d : List F) (k : Nat) (v : List F) (h : v.length < o + k + d.length)
    (hd : d ≠ []) : addAll (o : Int) k d v = .error .indexError := by
  induction d generalizing k v with
  | nil => exact absurd rfl hd
  | cons t d ih =>
    rw [List.length_cons] at h
    rw [addAll, addAt, pyPos]
    rw [if_neg (show ¬ ((o : Int) + k < 0) by omega)]
    by_cases hk : o + k < v.length
    · rw [if_pos (by omega)]
      simp only
      apply ih
      · rw [List.length_modify]; omega
      · rintro rfl; simp at h; omega
    · rw [if_neg (by omega)]

theorem posOffset_none {vf : Int} {attrs : List VAttr}
    (h : ∀ a ∈ attrs, ¬ (a.usage = 0 ∧ a.flag ≠ 255)) : posOffset vf attrs = .ok none := by
  induction attrs with
  | nil => rfl
  | cons a as ih =>
    rw [posOffset, if_neg (h a (by simp))]
    exact ih fun b hb => h b (by simp [hb])

theorem translate_inside {vs : Nat} {m : Mesh F} {a : VAttr} {o : Nat} {d : List F}
    (hv : 0 < vs) (hsz : VertexSize m.vattrs vs) (hin : ∀ b ∈ m.mats, VertsInside vs m b)
    (hp : FirstPosition m.vattrs a) (hs : StartsAt m.vertformat a o) (h : o + d.length ≤ vs) :
    translate m d =
      ({ m with vertices := m.mats.flatMap fun b => movedAll vs o d (vertexData vs m b) }, none) := by
  rw [translate, editVertices_flat,
    flatMapE_ok (g := fun b => movedAll vs o d (vertexData vs m b))]
  · rfl
  · intro b hb
    rw [editMat, (vertexSize_iff _ _).2 hsz]
    simp only
    rw [if_neg (by omega), matVertices_eq _ _ _ (hin b hb)]
    exact flatMapE_chunks hv _ (moved o d)
      (fun v hl => translateVertex_eq hp hs (by omega)) _ _ (vertexData_length _ _ _ (hin b hb))

theorem movedAll_append {vs o : Nat} {d : List F} (a b : List F) (h : vs ∣ a.length) :
    movedAll vs o d (a ++ b) = movedAll vs o d a ++ movedAll vs o d b := by
  unfold movedAll
  rw [List.mapIdx_append]
  congr 2
  funext i x
  obtain ⟨k, hk⟩ := h
  rw [hk, Nat.add_mul_mod_self_left]

theorem movedAll_flatMap {α : Type} {vs o : Nat} {d : List F} (l : List α) (f : α → List F)
    (h : ∀ a ∈ l, vs ∣ (f a).length) :
    movedAll vs o d (l.flatMap f) = l.flatMap fun a => movedAll vs o d (f a) := by
  induction l with
  | nil => rfl
  | cons a as ih =>
    rw [List.flatMap_cons, List.flatMap_cons, movedAll_append _ _ (h a (by simp)),
      ih fun b hb => h b (by simp [hb])]

theorem movedAll_length (vs o : Nat) (d l : List F) : (movedAll vs o d l).length = l.length := by
  simp [movedAll]

omit [FArith F] in
theorem vertexData_dvd {vs : Nat} {m : Mesh F} {a : Mat F} (h : VertsInside vs m a) :
    vs ∣ (vertexData vs m a).length := by
  rw [vertexData_length _ _ _ h]; exact Nat.dvd_mul_left _ _

theorem translate_tiled {vs : Nat} {m : Mesh F} {a : VAttr} {o : Nat} {d : List F}
    (ht : TiledVerts vs m) (hp : FirstPosition m.vattrs a) (hs : StartsAt m.vertformat a o)
    (h : o + d.length ≤ vs) :
    translate m d = ({ m with vertices := movedAll vs o d m.vertices }, none) := by
  rw [translate_inside ht.pos ht.size ht.inside hp hs h,
    ← movedAll_flatMap _ _ (fun b hb => vertexData_dvd (ht.inside b hb)), ht.flat]

end Bf2
