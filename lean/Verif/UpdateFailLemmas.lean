import Verif.BoundsLemmas

/-! Lemmas for C139: when `update_boundaries` raises. -/

namespace Bf2

variable {F : Type}

/-- A loop whose steps raise `e` or nothing. -/
theorem trav_err {σ α : Type} {f : σ → α → σ × α × Option Err} {e : Err} {p : α → Prop} (l : List α)
    (h : ∀ s, ∀ a ∈ l, (p a → (f s a).2.2 = some e) ∧ (¬ p a → (f s a).2.2 = none)) (s : σ) :
    ((∃ a ∈ l, p a) → (trav f s l).2.2 = some e) ∧ (¬ (∃ a ∈ l, p a) → (trav f s l).2.2 = none) := by
  induction l generalizing s with
  | nil => exact ⟨fun h => absurd h (by simp), fun _ => rfl⟩
  | cons a as ih =>
    obtain ⟨h1, h2⟩ := h s a (by simp)
    rw [trav]
    by_cases hp : p a
    · have h3 := h1 hp
      rcases hf : f s a with ⟨t, a', _ | e'⟩
      · rw [hf] at h3; cases h3
      · rw [hf] at h3
        exact ⟨fun _ => h3, fun hn => absurd ⟨a, by simp, hp⟩ hn⟩
    · have h3 := h2 hp
      rcases hf : f s a with ⟨t, a', _ | e'⟩
      · obtain ⟨i1, i2⟩ := ih (fun s b hb => h s b (by simp [hb])) t
        refine ⟨fun ⟨b, hb, pb⟩ => i1 ?_, fun hn => i2 fun ⟨b, hb, pb⟩ => hn ⟨b, by simp [hb], pb⟩⟩
        rcases List.mem_cons.1 hb with rfl | hb
        · exact absurd pb hp
        · exact ⟨b, hb, pb⟩
      · rw [hf] at h3; cases h3

variable [FArith F]

/-- If every vertex raises `e`, so does the update, unless there are no vertices. -/
theorem update_err_of {m : Mesh F} {e : Err}
    (hstep : ∀ a ∈ m.mats, ∀ v : Nat, (v : Int) < a.vnum → ∀ s, boundVertex m a s v = .error e) :
    ((∃ a ∈ m.mats, 0 < a.vnum) → (updateBoundaries m).2 = some e) ∧
    (¬ (∃ a ∈ m.mats, 0 < a.vnum) → (updateBoundaries m).2 = none) := by
  have hmat : ∀ g ∈ m.geoms, ∀ l ∈ g.lods, ∀ b, ∀ a ∈ l.materials,
      (0 < a.vnum → (boundMat m b a).2.2 = some e) ∧ (¬ 0 < a.vnum → (boundMat m b a).2.2 = none) := by
    intro g hg l hl b a ha
    have ham : a ∈ m.mats := List.mem_flatMap.2 ⟨g, hg, List.mem_flatMap.2 ⟨l, hl, ha⟩⟩
    constructor
    · intro hv
      obtain ⟨n, hn⟩ : ∃ n, a.vnum.toNat = n + 1 := ⟨a.vnum.toNat - 1, by omega⟩
      unfold boundMat
      rw [hn, List.range_succ_eq_map, foldE, hstep a ham 0 (by simpa using hv)]
    · intro hv
      have hn : a.vnum.toNat = 0 := by omega
      unfold boundMat
      rw [hn]
      simp only [List.range_zero, foldE]
      split <;> rfl
  have hlod : ∀ g ∈ m.geoms, ∀ u, ∀ l ∈ g.lods,
      ((∃ a ∈ l.materials, 0 < a.vnum) → (boundLod m u l).2.2 = some e) ∧
      (¬ (∃ a ∈ l.materials, 0 < a.vnum) → (boundLod m u l).2.2 = none) := by
    intro g hg u l hl
    obtain ⟨h1, h2⟩ := trav_err l.materials (hmat g hg l hl) Box.zero
    unfold boundLod
    rcases ht : trav (boundMat m) Box.zero l.materials with ⟨b, ms, _ | e'⟩ <;> rw [ht] at h1 h2
    · exact ⟨fun h => (h1 h), fun _ => rfl⟩
    · exact ⟨fun h => (h1 h), fun h => (h2 h)⟩
  have hgeom : ∀ u, ∀ g ∈ m.geoms,
      ((∃ l ∈ g.lods, ∃ a ∈ l.materials, 0 < a.vnum) → (boundGeom m u g).2.2 = some e) ∧
      (¬ (∃ l ∈ g.lods, ∃ a ∈ l.materials, 0 < a.vnum) → (boundGeom m u g).2.2 = none) := by
    intro u g hg
    exact trav_err g.lods (hlod g hg) ()
  obtain ⟨h1, h2⟩ := trav_err m.geoms hgeom ()
  have e1 : (∃ a ∈ m.mats, 0 < a.vnum) ↔ ∃ g ∈ m.geoms, ∃ l ∈ g.lods, ∃ a ∈ l.materials, 0 < a.vnum := by
    constructor
    · rintro ⟨a, ha, hv⟩
      obtain ⟨g, hg, ha⟩ := List.mem_flatMap.1 ha
      obtain ⟨l, hl, ha⟩ := List.mem_flatMap.1 ha
      exact ⟨g, hg, l, hl, a, ha, hv⟩
    · rintro ⟨g, hg, l, hl, a, ha, hv⟩
      exact ⟨a, List.mem_flatMap.2 ⟨g, hg, List.mem_flatMap.2 ⟨l, hl, ha⟩⟩, hv⟩
  rw [e1]
  exact ⟨h1, h2⟩

omit [FArith F] in
/-- Type and usage of an attribute exist. -/
theorem vertexAttrs_known {vf : Int} {buffer : List F} {s : Option (List F)} {b : VAttr} (h0 : vf ≠ 0)
    (hk : b.flag ≠ 255 → (∃ n, typeFloats b.vartype = some n) ∧ KnownUsage b.usage) :
    ∃ s', vertexAttrs vf buffer s b = .ok s' ∧ (¬ (b.usage = 0 ∧ b.flag ≠ 255) → s' = s) := by
  unfold vertexAttrs
  split
  · exact ⟨_, rfl, fun _ => rfl⟩
  · rename_i hf
    obtain ⟨⟨n, hn⟩, hu⟩ := hk hf
    rw [attrPos, if_neg h0]
    simp only
    rw [declLen_eq, hn]
    simp only
    rw [if_pos ((usageKnown_iff _).2 hu)]
    split
    · next h => exact ⟨_, rfl, fun hn => absurd ⟨h, hf⟩ hn⟩
    · exact ⟨_, rfl, fun _ => rfl⟩

omit [FArith F] in
theorem vertexAttrs_unknown {vf : Int} {buffer : List F} {s : Option (List F)} {b : VAttr} (h0 : vf ≠ 0)
    (hf : b.flag ≠ 255) (hk : typeFloats b.vartype = none ∨ ¬ KnownUsage b.usage) :
    vertexAttrs vf buffer s b = .error .valueError := by
  unfold vertexAttrs
  rw [if_neg hf, attrPos, if_neg h0]
  simp only
  rw [declLen_eq]
  rcases ht : typeFloats b.vartype with _ | n
  · rfl
  · simp only
    rcases hk with hk | hk
    · rw [ht] at hk; cases hk
    · rw [if_neg (fun h => hk ((usageKnown_iff _).1 h))]

omit [FArith F] in
theorem fold_unknown {vf : Int} {buffer : List F} {s : Option (List F)} {attrs : List VAttr} (h0 : vf ≠ 0)
    (h : ∃ b ∈ attrs, b.flag ≠ 255 ∧ (typeFloats b.vartype = none ∨ ¬ KnownUsage b.usage)) :
    foldE (vertexAttrs vf buffer) s attrs = .error .valueError := by
  induction attrs generalizing s with
  | nil => obtain ⟨b, hb, -⟩ := h; cases hb
  | cons a as ih =>
    rw [foldE]
    by_cases ha : a.flag ≠ 255 ∧ (typeFloats a.vartype = none ∨ ¬ KnownUsage a.usage)
    · rw [vertexAttrs_unknown h0 ha.1 ha.2]
    · obtain ⟨s', hs, -⟩ := vertexAttrs_known (buffer := buffer) (s := s) (b := a) h0 (fun hf => by
        push Not at ha
        obtain ⟨h1, h2⟩ := ha hf
        exact ⟨Option.ne_none_iff_exists'.1 h1, h2⟩)
      rw [hs]
      refine ih ?_
      obtain ⟨b, hb, hq⟩ := h
      rcases List.mem_cons.1 hb with rfl | hb
      · exact absurd hq ha
      · exact ⟨b, hb, hq⟩

omit [FArith F] in
theorem fold_known {vf : Int} {buffer : List F} {s : Option (List F)} {attrs : List VAttr} (h0 : vf ≠ 0)
    (h : ∀ b ∈ attrs, b.flag ≠ 255 → (∃ n, typeFloats b.vartype = some n) ∧ KnownUsage b.usage) :
    ∃ r, foldE (vertexAttrs vf buffer) s attrs = .ok r ∧
      ((∀ b ∈ attrs, ¬ (b.usage = 0 ∧ b.flag ≠ 255)) → r = s) := by
  induction attrs generalizing s with
  | nil => exact ⟨s, rfl, fun _ => rfl⟩
  | cons a as ih =>
    obtain ⟨s', hs, e⟩ := vertexAttrs_known (buffer := buffer) (s := s) (b := a) h0 (h a (by simp))
    obtain ⟨r, hr, e'⟩ := ih (s := s') (fun b hb => h b (by simp [hb]))
    refine ⟨r, by rw [foldE, hs]; exact hr, fun hn => ?_⟩
    rw [e' (fun b hb => hn b (by simp [hb])), e (hn a (by simp))]

theorem vertexSize_err {attrs : List VAttr} {e : Err} (h : vertexSize attrs = .error e) :
    e = .valueError ∧ ∃ b ∈ attrs, b.flag = 0 ∧ typeFloats b.vartype = none := by
  induction attrs with
  | nil => cases h
  | cons a as ih =>
    rw [vertexSize] at h
    split at h
    · next hf =>
      rw [declLen_eq] at h
      rcases ht : typeFloats a.vartype with _ | n
      · rw [ht] at h
        cases h
        exact ⟨rfl, a, by simp, hf, ht⟩
      · rw [ht] at h
        simp only at h
        rcases hv : vertexSize as with e' | r
        · rw [hv] at h
          cases h
          obtain ⟨h1, b, hb, h2⟩ := ih hv
          exact ⟨h1, b, by simp [hb], h2⟩
        · rw [hv] at h; cases h
    · obtain ⟨h1, b, hb, h2⟩ := ih h
      exact ⟨h1, b, by simp [hb], h2⟩

theorem boundVertex_unknown {m : Mesh F} {a : Mat F} {s : Box F × Box F} {v : Nat} (h0 : m.vertformat ≠ 0)
    (h : ∃ b ∈ m.vattrs, b.flag ≠ 255 ∧ (typeFloats b.vartype = none ∨ ¬ KnownUsage b.usage)) :
    boundVertex m a s v = .error .valueError := by
  unfold boundVertex
  rcases hs : vertexSize m.vattrs with e | vs
  · rw [(vertexSize_err hs).1]
  · simp only
    rw [fold_unknown h0 h]

theorem known_size {attrs : List VAttr}
    (h : ∀ b ∈ attrs, b.flag ≠ 255 → (∃ n, typeFloats b.vartype = some n) ∧ KnownUsage b.usage) :
    ∃ vs, vertexSize attrs = .ok vs := by
  rcases hs : vertexSize attrs with e | vs
  · obtain ⟨-, b, hb, hf, ht⟩ := vertexSize_err hs
    obtain ⟨⟨n, hn⟩, -⟩ := h b hb (by rw [hf]; decide)
    rw [ht] at hn; cases hn
  · exact ⟨vs, rfl⟩

theorem boundVertex_none {m : Mesh F} {a : Mat F} {s : Box F × Box F} {v : Nat} (hb : Bounded m)
    (h0 : m.vertformat ≠ 0)
    (h : ∀ b ∈ m.vattrs, b.flag ≠ 255 → (∃ n, typeFloats b.vartype = some n) ∧ KnownUsage b.usage)
    (hp : ∀ b ∈ m.vattrs, ¬ (b.usage = 0 ∧ b.flag ≠ 255)) :
    boundVertex m a s v = .error .attributeError := by
  obtain ⟨vs, hs⟩ := known_size h
  unfold boundVertex
  rw [hs]
  simp only
  obtain ⟨r, hr, e⟩ := fold_known (buffer := pySlice m.vertices ((a.vstart + v) * vs)
    ((a.vstart + v) * vs + vs)) (s := none) h0 h
  rw [hr, e hp]
  simp only
  rw [if_pos ((bounded_iff m).2 hb)]

theorem boundVertex_any {m : Mesh F} {a : Mat F} {s : Box F × Box F} {v : Nat} (hb : ¬ Bounded m)
    (h0 : m.vertformat ≠ 0)
    (h : ∀ b ∈ m.vattrs, b.flag ≠ 255 → (∃ n, typeFloats b.vartype = some n) ∧ KnownUsage b.usage) :
    boundVertex m a s v = .ok s := by
  obtain ⟨vs, hs⟩ := known_size h
  unfold boundVertex
  rw [hs]
  simp only
  obtain ⟨r, hr, -⟩ := fold_known (buffer := pySlice m.vertices ((a.vstart + v) * vs)
    ((a.vstart + v) * vs + vs)) (s := none) h0 h
  rw [hr]
  simp only
  rw [if_neg (fun hh => hb ((bounded_iff m).1 hh))]

omit [FArith F] in
theorem toVec3_short {l : List F} (h : l.length < 3) : toVec3 l = .error .indexError := by
  match l, h with
  | [], _ => rfl
  | [_], _ => rfl
  | [_, _], _ => rfl

omit [FArith F] in
theorem slice_short {vs o n : Nat} {l : List F} {k : Nat} (h : n < 3 ∨ vs < o + 3) :
    (pySlice (pySlice l (((k * vs : Nat)) : Int) ((k * vs : Nat) + vs)) o (o + n)).length < 3 := by
  have e1 : (((k * vs : Nat) : Int) + vs) = ((k * vs + vs : Nat) : Int) := by push_cast; rfl
  have e2 : ((o : Int) + n) = ((o + n : Nat) : Int) := by push_cast; rfl
  rw [e1, e2, pySlice_nat, pySlice_nat]
  simp only [List.length_take, List.length_drop]
  omega

theorem boundVertex_short {vs o n : Nat} {m : Mesh F} {a : Mat F} {s : Box F × Box F} {v : Nat} {p : VAttr}
    (hb : Bounded m) (h0 : m.vertformat ≠ 0)
    (h : ∀ b ∈ m.vattrs, b.flag ≠ 255 → (∃ n, typeFloats b.vartype = some n) ∧ KnownUsage b.usage)
    (hsz : VertexSize m.vattrs vs) (hp : LastPosition m.vattrs p) (hs : StartsAt m.vertformat p o)
    (hn : typeFloats p.vartype = some n) (hv : 0 ≤ a.vstart) (hl : n < 3 ∨ vs < o + 3) :
    boundVertex m a s v = .error .indexError := by
  unfold boundVertex
  rw [(vertexSize_iff _ _).2 hsz]
  simp only
  obtain ⟨r, hr, -⟩ := fold_known (buffer := pySlice m.vertices ((a.vstart + v) * vs)
    ((a.vstart + v) * vs + vs)) (s := none) h0 h
  have hr' := vertexAttrs_last hp hs hn hr
  rw [hr, hr']
  simp only
  rw [if_pos ((bounded_iff m).2 hb)]
  obtain ⟨k, hk⟩ := Int.eq_ofNat_of_zero_le hv
  have e : (a.vstart + v) * vs = (((k + v) * vs : Nat) : Int) := by rw [hk]; push_cast; ring
  rw [e, toVec3_short (slice_short hl)]

theorem last_position {attrs : List VAttr} (h : ¬ ∀ b ∈ attrs, ¬ (b.usage = 0 ∧ b.flag ≠ 255)) :
    ∃ p, LastPosition attrs p := by
  induction attrs with
  | nil => exact absurd (fun b hb => by cases hb) h
  | cons a as ih =>
    by_cases hs : ∀ b ∈ as, ¬ (b.usage = 0 ∧ b.flag ≠ 255)
    · refine ⟨a, [], as, rfl, ?_, hs⟩
      by_contra ha
      refine h fun b hb => ?_
      rcases List.mem_cons.1 hb with rfl | hb
      · exact ha
      · exact hs b hb
    · obtain ⟨p, pre, post, e, h1, h2⟩ := ih hs
      exact ⟨p, a :: pre, post, by rw [e]; rfl, h1, h2⟩

end Bf2
