import Verif.BoundsSpec
import Verif.BoundsLemmas
import Verif.AlgebraLemmas

/-! # Lemmas about bounds of edited meshes -/

namespace Bf2

variable {F : Type}

theorem key_neg {x : F64} (h : x.key < 0) : x.neg = true := by
  unfold F64.key at h
  split at h
  · assumption
  · omega

theorem key_inj {x y : F64} (hx : x.key ≠ 0) (h : x.key = y.key) : x = y := by
  rcases x with ⟨nx, mx, hx'⟩
  rcases y with ⟨ny, my, hy'⟩
  unfold F64.key at hx h
  simp only at hx h
  cases nx <;> cases ny <;> simp only [Bool.false_eq_true, if_false, if_true] at hx h
  · have : mx = my := by omega
    subst this; rfl
  · omega
  · omega
  · have : mx = my := by omega
    subst this; rfl

theorem zero_key : (FArith.zero : F64).key = 0 := by decide

theorem zero_nan : (FArith.zero : F64).isNaN = false := by decide

theorem lt_iff_key (x y : F64) : FArith.lt x y = true ↔
    x.isNaN = false ∧ y.isNaN = false ∧ x.key < y.key := by
  change F64.lt' x y = true ↔ _
  unfold F64.lt'
  simp [and_assoc]

instance : LawfulOrder F64 where
  cotrans x y z h hy := by
    have hyn : y.isNaN = false := by
      rcases hy with rfl | h | h
      · exact zero_nan
      · exact ((lt_iff_key _ _).1 h).1
      · exact ((lt_iff_key _ _).1 h).2.1
    rw [lt_iff_key] at h ⊢
    rw [lt_iff_key]
    by_cases hh : x.key < y.key
    · exact Or.inl ⟨h.1, hyn, hh⟩
    · exact Or.inr ⟨hyn, h.2.1, by omega⟩
  tie_neg x y hx hy h1 h2 := by
    rw [lt_iff_key, zero_key] at hx hy
    have e1 : ¬ (FArith.lt x y = true) := by rw [h1]; decide
    have e2 : ¬ (FArith.lt y x = true) := by rw [h2]; decide
    rw [lt_iff_key] at e1 e2
    refine key_inj (by omega) ?_
    have a1 : ¬ x.key < y.key := fun h => e1 ⟨hx.1, hy.1, h⟩
    have a2 : ¬ y.key < x.key := fun h => e2 ⟨hy.1, hx.1, h⟩
    omega
  tie_pos x y hx hy h1 h2 := by
    rw [lt_iff_key, zero_key] at hx hy
    have e1 : ¬ (FArith.lt x y = true) := by rw [h1]; decide
    have e2 : ¬ (FArith.lt y x = true) := by rw [h2]; decide
    rw [lt_iff_key] at e1 e2
    refine key_inj (by omega) ?_
    have a1 : ¬ x.key < y.key := fun h => e1 ⟨hx.2.1, hy.2.1, h⟩
    have a2 : ¬ y.key < x.key := fun h => e2 ⟨hy.2.1, hx.2.1, h⟩
    omega

theorem lt_real (x y : ℝ) : FArith.lt x y = true ↔ x < y := by
  change decide (x < y) = true ↔ _
  rw [decide_eq_true_eq]

theorem not_lt_real (x y : ℝ) : FArith.lt x y = false ↔ y ≤ x := by
  change decide (x < y) = false ↔ _
  rw [decide_eq_false_iff_not, not_lt]

instance : LawfulOrder ℝ where
  cotrans x y z h _ := by
    rw [lt_real] at *
    rw [lt_real]
    rcases lt_or_ge x y with e | e
    · exact Or.inl e
    · exact Or.inr (e.trans_lt h)
  tie_neg x y _ _ h1 h2 := by
    rw [not_lt_real] at h1 h2
    exact le_antisymm h2 h1
  tie_pos x y _ _ h1 h2 := by
    rw [not_lt_real] at h1 h2
    exact le_antisymm h2 h1

section
variable [FArith F] [LawfulOrder F]

/-! ## Least and greatest -/

theorem lt_asymm' {x y : F} (h : FArith.lt x y = true) : FArith.lt y x = false := by
  by_contra hh
  rw [Bool.not_eq_false] at hh
  have := LawfulLt.trans _ _ _ h hh
  rw [LawfulLt.irrefl] at this
  cases this

theorem Lowest.unique {v w : F} {P Q : F → Prop} (hPQ : ∀ x, P x ↔ Q x) (h : Lowest v P)
    (h' : Lowest w Q) : v = w := by
  rcases h.2 with rfl | ⟨hv, pv⟩ <;> rcases h'.2 with rfl | ⟨hw, pw⟩
  · rfl
  · have := h.1 _ ((hPQ _).2 pw); rw [hw] at this; cases this
  · have := h'.1 _ ((hPQ _).1 pv); rw [hv] at this; cases this
  · exact LawfulOrder.tie_neg _ _ hv hw (h'.1 _ ((hPQ _).1 pv)) (h.1 _ ((hPQ _).2 pw))

theorem Highest.unique {v w : F} {P Q : F → Prop} (hPQ : ∀ x, P x ↔ Q x) (h : Highest v P)
    (h' : Highest w Q) : v = w := by
  rcases h.2 with rfl | ⟨hv, pv⟩ <;> rcases h'.2 with rfl | ⟨hw, pw⟩
  · rfl
  · have := h.1 _ ((hPQ _).2 pw); rw [hw] at this; cases this
  · have := h'.1 _ ((hPQ _).1 pv); rw [hv] at this; cases this
  · exact LawfulOrder.tie_pos _ _ hv hw (h.1 _ ((hPQ _).2 pw)) (h'.1 _ ((hPQ _).1 pv))

omit [LawfulOrder F] in
theorem Lowest.number {v : F} {P : F → Prop} (h : Lowest v P) :
    v = FArith.zero ∨ FArith.lt v FArith.zero = true ∨ FArith.lt FArith.zero v = true :=
  h.2.imp id fun h => Or.inl h.1

omit [LawfulOrder F] in
theorem Highest.number {v : F} {P : F → Prop} (h : Highest v P) :
    v = FArith.zero ∨ FArith.lt v FArith.zero = true ∨ FArith.lt FArith.zero v = true :=
  h.2.imp id fun h => Or.inr h.1

theorem Lowest.or {v w : F} {P Q : F → Prop} (h : Lowest v P) (h' : Lowest w Q) :
    Lowest (if FArith.lt w v then w else v) fun x => P x ∨ Q x := by
  split
  · rename_i hlt
    refine ⟨?_, h'.2.imp id fun hw => ⟨hw.1, Or.inr hw.2⟩⟩
    rintro x (hx | hx)
    · by_contra hh
      rw [Bool.not_eq_false] at hh
      have := LawfulLt.trans _ _ _ hh hlt
      rw [h.1 x hx] at this; cases this
    · exact h'.1 x hx
  · rename_i hlt
    refine ⟨?_, h.2.imp id fun hv => ⟨hv.1, Or.inl hv.2⟩⟩
    rintro x (hx | hx)
    · exact h.1 x hx
    · by_contra hh
      rw [Bool.not_eq_false] at hh
      rcases LawfulOrder.cotrans x w v hh h'.number with e | e
      · rw [h'.1 x hx] at e; cases e
      · exact hlt e

theorem Highest.or {v w : F} {P Q : F → Prop} (h : Highest v P) (h' : Highest w Q) :
    Highest (if FArith.lt v w then w else v) fun x => P x ∨ Q x := by
  split
  · rename_i hlt
    refine ⟨?_, h'.2.imp id fun hw => ⟨hw.1, Or.inr hw.2⟩⟩
    rintro x (hx | hx)
    · by_contra hh
      rw [Bool.not_eq_false] at hh
      have := LawfulLt.trans _ _ _ hlt hh
      rw [h.1 x hx] at this; cases this
    · exact h'.1 x hx
  · rename_i hlt
    refine ⟨?_, h.2.imp id fun hv => ⟨hv.1, Or.inl hv.2⟩⟩
    rintro x (hx | hx)
    · exact h.1 x hx
    · by_contra hh
      rw [Bool.not_eq_false] at hh
      rcases LawfulOrder.cotrans v w x hh h'.number with e | e
      · exact hlt e
      · rw [h'.1 x hx] at e; cases e

omit [FArith F] [LawfulOrder F] in
theorem comp_ext {a b : Vec3 F} (h : ∀ c, a.comp c = b.comp c) : a = b := by
  rcases a with ⟨ax, ay, az⟩
  rcases b with ⟨bx, bY, bz⟩
  have h0 : ax = bx := h 0
  have h1 : ay = bY := h 1
  have h2 : az = bz := h 2
  subst h0 h1 h2
  rfl

theorem Hull.unique {a b a' b' : Vec3 F} {P Q : Vec3 F → Prop} (hPQ : ∀ x, P x ↔ Q x)
    (h : Hull a b P) (h' : Hull a' b' Q) : a = a' ∧ b = b' := by
  have hc : ∀ c t, (∃ x, P x ∧ x.comp c = t) ↔ ∃ x, Q x ∧ x.comp c = t := fun c t => by
    simp only [hPQ]
  exact ⟨comp_ext fun c => (h c).1.unique (hc c) (h' c).1,
    comp_ext fun c => (h c).2.unique (hc c) (h' c).2⟩

theorem Hull.around {a b a' b' u v : Vec3 F} {P Q R : Vec3 F → Prop} (h : Hull a b P)
    (h' : Hull a' b' Q) (hR : ∀ x, R x ↔ P x ∨ Q x) (hu : Hull u v R) : BoxAround a b a' b' u v := by
  have hc : ∀ c t, (∃ x, R x ∧ x.comp c = t) ↔
      (∃ x, P x ∧ x.comp c = t) ∨ ∃ x, Q x ∧ x.comp c = t := fun c t => by
    simp only [hR, or_and_right, exists_or]
  exact fun c => ⟨(hu c).1.unique (hc c) ((h c).1.or (h' c).1),
    (hu c).2.unique (hc c) ((h c).2.or (h' c).2)⟩

theorem minFold (f : Vec3 F → F) (ps : List (Vec3 F)) (v : F) :
    let w := ps.foldl (fun v p => minUpd v (f p)) v
    w = v ∨ FArith.lt w v = true ∧ ∃ x ∈ ps, f x = w := by
  induction ps generalizing v with
  | nil => exact Or.inl rfl
  | cons p ps ih =>
    have := ih (minUpd v (f p))
    simp only [List.foldl_cons] at *
    rcases this with e | ⟨h, x, hx, e⟩
    · rw [e]
      unfold minUpd
      split
      · rename_i h; exact Or.inr ⟨h, p, by simp, rfl⟩
      · exact Or.inl rfl
    · refine Or.inr ⟨?_, x, by simp [hx], e⟩
      by_cases hlt : FArith.lt (f p) v = true
      · have e2 : minUpd v (f p) = f p := if_pos hlt
        rw [e2] at h
        rw [e2]
        exact LawfulLt.trans _ _ _ h hlt
      · have e2 : minUpd v (f p) = v := if_neg hlt
        rw [e2] at h
        rw [e2]; exact h

theorem maxFold (f : Vec3 F → F) (ps : List (Vec3 F)) (v : F) :
    let w := ps.foldl (fun v p => maxUpd v (f p)) v
    w = v ∨ FArith.lt v w = true ∧ ∃ x ∈ ps, f x = w := by
  induction ps generalizing v with
  | nil => exact Or.inl rfl
  | cons p ps ih =>
    have := ih (maxUpd v (f p))
    simp only [List.foldl_cons] at *
    rcases this with e | ⟨h, x, hx, e⟩
    · rw [e]
      unfold maxUpd
      split
      · rename_i h; exact Or.inr ⟨h, p, by simp, rfl⟩
      · exact Or.inl rfl
    · refine Or.inr ⟨?_, x, by simp [hx], e⟩
      by_cases hlt : FArith.lt v (f p) = true
      · have e2 : maxUpd v (f p) = f p := if_pos hlt
        rw [e2] at h
        rw [e2]
        exact LawfulLt.trans _ _ _ hlt h
      · have e2 : maxUpd v (f p) = v := if_neg hlt
        rw [e2] at h
        rw [e2]; exact h

omit [LawfulOrder F] in
theorem fold_comp (ps : List (Vec3 F)) (b : Box F) (c : Fin 3) :
    (ps.foldl Box.extend b).min.comp c = ps.foldl (fun v p => minUpd v (p.comp c)) (b.min.comp c) ∧
    (ps.foldl Box.extend b).max.comp c =
      ps.foldl (fun v p => maxUpd v (p.comp c)) (b.max.comp c) := by
  induction ps generalizing b with
  | nil => exact ⟨rfl, rfl⟩
  | cons p ps ih =>
    have := ih (b.extend p)
    rw [extend_min, extend_max] at this
    exact this

theorem fold_hull (ps : List (Vec3 F)) :
    Hull (ps.foldl Box.extend Box.zero).min (ps.foldl Box.extend Box.zero).max (· ∈ ps) := by
  intro c
  have hc := fold_covers ps (Box.zero : Box F)
  obtain ⟨e1, e2⟩ := fold_comp ps (Box.zero : Box F) c
  rw [(zero_comp c).1] at e1
  rw [(zero_comp c).2] at e2
  refine ⟨⟨?_, ?_⟩, ⟨?_, ?_⟩⟩
  · rintro t ⟨x, hx, rfl⟩
    exact (hc x hx c).1
  · rw [e1]
    exact minFold (·.comp c) ps FArith.zero
  · rintro t ⟨x, hx, rfl⟩
    exact (hc x hx c).2
  · rw [e2]
    exact maxFold (·.comp c) ps FArith.zero

theorem update_hull {vs o : Nat} {m m' : Mesh F} {p : VAttr} (hb : Bounded m)
    (hsz : VertexSize m.vattrs vs) (hpos : PositionAt vs o m p)
    (hin : ∀ a ∈ m.mats, VertsInside vs m a) (h : updateBoundaries m = (m', none)) :
    BoundsAre Hull vs o m m' :=
  update_bounds hb hsz hpos hin h Hull fold_hull

end

/-! ## Positions in the data of a material -/

theorem block_getElem? {α : Type} (l : List α) (s n : Nat) {i : Nat} (h : i < n) :
    (block l s n)[i]? = l[s + i]? := by
  unfold block
  rw [List.getElem?_take, if_pos (by simpa using h), List.getElem?_drop]
  rfl

/-- Positions only depend on the data of the material. -/
theorem posOf_data {vs o : Nat} {m : Mesh F} {a : Mat F} (hin : VertsInside vs m a)
    (ho : o + 3 ≤ vs) (x : Vec3 F) : PosOf vs o m a x ↔
      ∃ v : Nat, v < a.vnum.toNat ∧ vec3At (vertexData vs m a) (v * vs + o) = some x := by
  have h0 := hin.1
  have h1 := hin.2.1
  unfold PosOf
  have key : ∀ v : Nat, v < a.vnum.toNat →
      vec3At (vertexData vs m a) (v * vs + o) =
        vec3At m.vertices ((a.vstart.toNat + v) * vs + o) := by
    intro v hv
    have e1 : a.vstart * (vs : Int) = ((a.vstart.toNat * vs : Nat) : Int) := by
      push_cast; rw [Int.toNat_of_nonneg h0]
    have e2 : a.vnum * (vs : Int) = ((a.vnum.toNat * vs : Nat) : Int) := by
      push_cast; rw [Int.toNat_of_nonneg h1]
    have hle : v * vs + vs ≤ a.vnum.toNat * vs := by
      calc v * vs + vs = (v + 1) * vs := by ring
        _ ≤ _ := Nat.mul_le_mul_right _ hv
    unfold vec3At vertexData
    rw [e1, e2, block_getElem? _ _ _ (by omega), block_getElem? _ _ _ (by omega),
      block_getElem? _ _ _ (by omega)]
    have e3 : a.vstart.toNat * vs + (v * vs + o) = (a.vstart.toNat + v) * vs + o := by ring
    rw [← Nat.add_assoc _ _ 1, ← Nat.add_assoc _ _ 2, e3]
  constructor
  · rintro ⟨v, hv, hx⟩
    have hv' : v < a.vnum.toNat := by omega
    exact ⟨v, hv', by rw [key v hv']; exact hx⟩
  · rintro ⟨v, hv, hx⟩
    exact ⟨v, by omega, by rw [← key v hv]; exact hx⟩

theorem vertexData_size {vs : Nat} {m : Mesh F} {a : Mat F} (hin : VertsInside vs m a) :
    (vertexData vs m a).length = a.vnum.toNat * vs := by
  obtain ⟨h0, h1, h2⟩ := hin
  have e1 : a.vstart * (vs : Int) = ((a.vstart.toNat * vs : Nat) : Int) := by
    push_cast; rw [Int.toNat_of_nonneg h0]
  have e2 : a.vnum * (vs : Int) = ((a.vnum.toNat * vs : Nat) : Int) := by
    push_cast; rw [Int.toNat_of_nonneg h1]
  have h3 : a.vstart.toNat * vs + a.vnum.toNat * vs ≤ m.vertices.length := by
    have : ((a.vstart.toNat * vs + a.vnum.toNat * vs : Nat) : Int) ≤ m.vertices.length := by
      push_cast
      rw [Int.toNat_of_nonneg h0, Int.toNat_of_nonneg h1]
      rw [Int.add_mul] at h2; exact h2
    exact_mod_cast this
  unfold vertexData block
  rw [e1, e2, List.length_take, List.length_drop]
  simp only [Int.toNat_natCast]
  omega

theorem vec3At_append_left {l r : List F} {i : Nat} (h : i + 3 ≤ l.length) :
    vec3At (l ++ r) i = vec3At l i := by
  unfold vec3At
  rw [List.getElem?_append_left (by omega), List.getElem?_append_left (by omega),
    List.getElem?_append_left (by omega)]

theorem vec3At_append_right {l r : List F} {i : Nat} :
    vec3At (l ++ r) (l.length + i) = vec3At r i := by
  unfold vec3At
  rw [Nat.add_assoc, Nat.add_assoc, List.getElem?_append_right (by omega),
    List.getElem?_append_right (by omega), List.getElem?_append_right (by omega)]
  simp only [Nat.add_sub_cancel_left]

/-- The positions of a merged material are those of both. -/
theorem posOf_merged {vs o : Nat} {m n m' : Mesh F} {a b a' : Mat F} (ha : VertsInside vs m a)
    (hb : VertsInside vs n b) (ha' : VertsInside vs m' a') (ho : o + 3 ≤ vs)
    (h : MatMerged vs m n m' a b a') (x : Vec3 F) :
    PosOf vs o m' a' x ↔ PosOf vs o m a x ∨ PosOf vs o n b x := by
  rw [posOf_data ha' ho, posOf_data ha ho, posOf_data hb ho, h.verts]
  have hn : a'.vnum.toNat = a.vnum.toNat + b.vnum.toNat := by
    have : a'.vnum = a.vnum + b.vnum := by rw [h.fields]
    have := ha.2.1
    have := hb.2.1
    omega
  have hl := vertexData_size ha
  rw [hn]
  have hle : ∀ {v n : Nat}, v < n → v * vs + vs ≤ n * vs := fun {v n} hv => by
    calc v * vs + vs = (v + 1) * vs := by ring
      _ ≤ _ := Nat.mul_le_mul_right _ hv
  constructor
  · rintro ⟨v, hv, hx⟩
    by_cases hc : v < a.vnum.toNat
    · have := hle hc
      exact Or.inl ⟨v, hc, by rw [vec3At_append_left (by omega)] at hx; exact hx⟩
    · refine Or.inr ⟨v - a.vnum.toNat, by omega, ?_⟩
      have e : v * vs + o = (vertexData vs m a).length + ((v - a.vnum.toNat) * vs + o) := by
        rw [hl, ← Nat.add_assoc, ← Nat.add_mul]
        congr 2
        omega
      rw [e, vec3At_append_right] at hx
      exact hx
  · rintro (⟨v, hv, hx⟩ | ⟨v, hv, hx⟩)
    · have := hle hv
      exact ⟨v, by omega, by rw [vec3At_append_left (by omega)]; exact hx⟩
    · refine ⟨a.vnum.toNat + v, by omega, ?_⟩
      have e : (a.vnum.toNat + v) * vs + o = (vertexData vs m a).length + (v * vs + o) := by
        rw [hl]; ring
      rw [e, vec3At_append_right]
      exact hx

theorem posOf_kept {vs o : Nat} {m m' : Mesh F} {a a' : Mat F} (ha : VertsInside vs m a)
    (ha' : VertsInside vs m' a') (ho : o + 3 ≤ vs) (h : MatKept vs m m' a a') (x : Vec3 F) :
    PosOf vs o m' a' x ↔ PosOf vs o m a x := by
  rw [posOf_data ha' ho, posOf_data ha ho, h.verts]
  have : a'.vnum = a.vnum := by rw [h.fields]
  rw [this]

/-! ## Lod by lod -/

theorem forall₂_chain {α β γ δ : Type} {R : α → β → Prop} {S : α → γ → Prop} {T : γ → δ → Prop}
    {x : List α} {y : List β} {z : List γ} {w : List δ} (h1 : List.Forall₂ R x y)
    (h2 : List.Forall₂ S x z) (h3 : List.Forall₂ T z w) :
    List.Forall₂ (fun b d => ∃ a c, R a b ∧ S a c ∧ T c d) y w := by
  induction h1 generalizing z w with
  | nil => cases h2; cases h3; exact .nil
  | cons hab _ ih =>
    cases h2 with
    | cons hac h2 =>
      cases h3 with
      | cons hcd h3 => exact .cons ⟨_, _, hab, hac, hcd⟩ (ih h2 h3)

theorem shape_lods {g g' : Geom F} (h : g'.shape = g.shape) :
    List.Forall₂ (fun l l' : Lod F => l.materials.length = l'.materials.length) g.lods g'.lods := by
  unfold Geom.shape at h
  rw [Prod.mk.injEq] at h
  apply forall₂_of_getElem?
  · have := congrArg List.length h.2; simpa using this.symm
  · intro i l l' hl hl'
    have := congrArg (fun l => l[i]?) h.2
    simp only [List.getElem?_map, hl, hl', Option.map_some, Option.some.injEq, Prod.mk.injEq] at this
    exact this.2.symm

/-- Merged materials, lod by lod. -/
theorem Merged.lods {vs : Nat} {m n m' : Mesh F} (h : Merged vs m n m') (hc : Compatible m n)
    (hm : Inside vs m) (hn : Inside vs n) :
    List.Forall₂ (fun (p : Geom F × Geom F) (g' : Geom F) =>
      List.Forall₂ (fun (q : Lod F × Lod F) (l' : Lod F) =>
        (q.1.materials.length = q.2.materials.length ∧
          q.1.materials.length = l'.materials.length) ∧
        List.Forall₂ (fun (r : Mat F × Mat F) a' => MatMerged vs m n m' r.1 r.2 a')
          (q.1.materials.zip q.2.materials) l'.materials) (p.1.lods.zip p.2.lods) g'.lods)
      (m.geoms.zip n.geoms) m'.geoms := by
  have hg := h.geoms hc hm hn
  apply forall₂_of_getElem? hg.length_eq
  intro i p g' hp hg'
  obtain ⟨g1, hg1, hs, hmats⟩ := forall₂_getElem? hg hp
  rw [hg'] at hg1
  cases hg1
  rw [List.getElem?_zip_eq_some] at hp
  obtain ⟨k, hk, hl⟩ := forall₂_getElem? hc.geoms hp.1
  rw [hp.2] at hk
  cases hk
  have hlen : List.Forall₂ (fun l k : Lod F => l.materials.length = k.materials.length)
      p.1.lods p.2.lods := hl.imp fun _ _ h => h.length_eq
  have hz : p.1.mats.zip p.2.mats =
      (p.1.lods.zip p.2.lods).flatMap fun q => q.1.materials.zip q.2.materials :=
    zip_flatMap hlen
  rw [hz] at hmats
  have hsl := shape_lods hs
  have hboth : List.Forall₂ (fun (q : Lod F × Lod F) (l' : Lod F) =>
      q.1.materials.length = q.2.materials.length ∧ q.1.materials.length = l'.materials.length)
      (p.1.lods.zip p.2.lods) g'.lods := by
    apply forall₂_of_getElem?
    · rw [List.length_zip, ← hlen.length_eq, hsl.length_eq]; omega
    · intro j q l' hq hl'
      rw [List.getElem?_zip_eq_some] at hq
      obtain ⟨l1, hl1, e1⟩ := forall₂_getElem? hsl hq.1
      rw [hl'] at hl1
      cases hl1
      obtain ⟨k1, hk1, e2⟩ := forall₂_getElem? hlen hq.1
      rw [hq.2] at hk1
      cases hk1
      exact ⟨e2, e1⟩
  exact forall₂_and hboth (forall₂_flatMap (g := Lod.materials) (hboth.imp fun q l' h => by
    rw [List.length_zip, ← h.1, h.2]; omega) hmats)

theorem GeomKept.lods {vs : Nat} {m m' : Mesh F} {g g' : Geom F} (h : GeomKept vs m m' g g') :
    List.Forall₂ (fun l l' : Lod F => List.Forall₂ (MatKept vs m m') l.materials l'.materials)
      g.lods g'.lods :=
  forall₂_flatMap (shape_lods h.shape) h.mats

end Bf2
