import Verif.RepoBlindSpec
import Verif.RepoEditLemmas
import Verif.RepoTranslateLemmas

/-! # Lemmas for C137 -/

namespace Bf2

variable {F : Type}

theorem matAt_matIn {m : Mesh F} {i j k : Nat} {a : Mat F} : matAt m i j k = .ok a ↔ MatIn m i j k a :=
  matAt_ok

theorem matAt_error {m : Mesh F} {i j k : Nat} {e : Err} :
    matAt m i j k = .error e ↔ (∀ a, ¬ MatIn m i j k a) ∧ e = .indexError := by
  constructor
  · intro h
    refine ⟨fun a ha => ?_, ?_⟩
    · rw [matAt_matIn.2 ha] at h; cases h
    · unfold matAt at h
      split at h
      · cases h; rfl
      · split at h
        · cases h; rfl
        · split at h
          · cases h; rfl
          · cases h
  · rintro ⟨h, rfl⟩
    rcases hm : matAt m i j k with e | a
    · unfold matAt at hm
      split at hm
      · exact hm.symm
      · split at hm
        · exact hm.symm
        · split at hm
          · exact hm.symm
          · cases hm
    · exact absurd (matAt_matIn.1 hm) (h a)

theorem assertMergedMat_true {o old : Mesh F} {i j k : Nat} {c : Mat F} :
    assertMergedMat o old i j (k, c) = .ok true ↔
      ∃ a b, MatIn old i j k a ∧ MatIn o i j k b ∧ CountsOf a b c := by
  unfold assertMergedMat
  simp only
  rcases hb : matAt o i j k with e | b
  · have := (matAt_error.1 hb).1
    constructor
    · intro h; cases h
    · rintro ⟨a, b, -, hb', -⟩; exact absurd hb' (this b)
  · rcases ha : matAt old i j k with e | a
    · have := (matAt_error.1 ha).1
      constructor
      · intro h; cases h
      · rintro ⟨a, b, ha', -⟩; exact absurd ha' (this a)
    · simp only [Except.ok.injEq, decide_eq_true_eq]
      constructor
      · intro h
        exact ⟨a, b, matAt_matIn.1 ha, matAt_matIn.1 hb, h⟩
      · rintro ⟨a', b', ha', hb', h⟩
        rw [matAt_matIn.2 ha'] at ha
        rw [matAt_matIn.2 hb'] at hb
        cases ha; cases hb
        exact h

theorem mergeTest_iff {m o old : Mesh F} : mergeTest m o old = .ok true ↔
    ∀ i j k c, MatIn m i j k c → ∃ a b, MatIn old i j k a ∧ MatIn o i j k b ∧ CountsOf a b c := by
  unfold mergeTest
  rw [assertEach_true]
  constructor
  · rintro h i j k c ⟨g, l, hg, hl, hc⟩
    have h1 := h (i, g) (numbered_mem.2 hg)
    rw [assertEach_true] at h1
    have h2 := h1 (j, l) (numbered_mem.2 hl)
    rw [assertEach_true] at h2
    exact assertMergedMat_true.1 (h2 (k, c) (numbered_mem.2 hc))
  · rintro h ⟨i, g⟩ hg
    rw [assertEach_true]
    rintro ⟨j, l⟩ hl
    rw [assertEach_true]
    rintro ⟨k, c⟩ hc
    exact assertMergedMat_true.2
      (h i j k c ⟨g, l, numbered_mem.1 hg, numbered_mem.1 hl, numbered_mem.1 hc⟩)

theorem assertEach_error {α : Type} {f : α → Except Err Bool} {l : List α} {e : Err}
    (each : ∀ a ∈ l, f a = .ok true ∨ f a = .error e) (some : ∃ a ∈ l, f a = .error e) :
    assertEach f l = .error e := by
  induction l with
  | nil => obtain ⟨a, ha, -⟩ := some; cases ha
  | cons a l ih =>
    rw [assertEach]
    rcases each a (by simp) with h | h
    · rw [h]
      refine ih (fun b hb => each b (by simp [hb])) ?_
      obtain ⟨b, hb, hf⟩ := some
      rcases List.mem_cons.1 hb with rfl | hb
      · rw [h] at hf; cases hf
      · exact ⟨b, hb, hf⟩
    · rw [h]

theorem assertEach_or {α : Type} {f : α → Except Err Bool} {l : List α} {e : Err}
    (each : ∀ a ∈ l, f a = .ok true ∨ f a = .error e) :
    assertEach f l = .ok true ∨ assertEach f l = .error e := by
  by_cases h : ∃ a ∈ l, f a = .error e
  · exact Or.inr (assertEach_error each h)
  · refine Or.inl (assertEach_true.2 fun a ha => ?_)
    rcases each a ha with h1 | h1
    · exact h1
    · exact absurd ⟨a, ha, h1⟩ h

theorem assertMergedMat_missing {o old : Mesh F} {i j k : Nat} {c : Mat F}
    (h : (∀ a, ¬ MatIn old i j k a) ∨ (∀ b, ¬ MatIn o i j k b)) :
    assertMergedMat o old i j (k, c) = .error .indexError := by
  unfold assertMergedMat
  simp only
  rcases hb : matAt o i j k with e | b
  · rw [(matAt_error.1 hb).2]
  · rcases h with h | h
    · rw [matAt_error.2 ⟨h, rfl⟩]
    · exact absurd (matAt_matIn.1 hb) (h b)

theorem mergeTest_missing {m o old : Mesh F}
    (present : ∀ i j k a b c, MatIn m i j k c → MatIn old i j k a → MatIn o i j k b → CountsOf a b c)
    (missing : ∃ i j k c, MatIn m i j k c ∧ ((∀ a, ¬ MatIn old i j k a) ∨ (∀ b, ¬ MatIn o i j k b))) :
    mergeTest m o old = .error .indexError := by
  have one : ∀ i j k c, MatIn m i j k c → assertMergedMat o old i j (k, c) = .ok true ∨
      assertMergedMat o old i j (k, c) = .error .indexError := by
    intro i j k c hc
    by_cases ha : ∃ a, MatIn old i j k a
    · by_cases hb : ∃ b, MatIn o i j k b
      · obtain ⟨a, ha⟩ := ha
        obtain ⟨b, hb⟩ := hb
        exact Or.inl (assertMergedMat_true.2 ⟨a, b, ha, hb, present i j k a b c hc ha hb⟩)
      · exact Or.inr (assertMergedMat_missing (Or.inr fun b h => hb ⟨b, h⟩))
    · exact Or.inr (assertMergedMat_missing (Or.inl fun a h => ha ⟨a, h⟩))
  obtain ⟨i, j, k, c, ⟨g, l, hg, hl, hc⟩, hmiss⟩ := missing
  have lodOr : ∀ i g, (i, g) ∈ numbered m.geoms → ∀ j l, (j, l) ∈ numbered g.lods →
      assertEach (assertMergedMat o old i j) (numbered l.materials) = .ok true ∨
      assertEach (assertMergedMat o old i j) (numbered l.materials) = .error .indexError := by
    intro i g hg j l hl
    refine assertEach_or fun p hp => ?_
    obtain ⟨k, c⟩ := p
    exact one i j k c ⟨g, l, numbered_mem.1 hg, numbered_mem.1 hl, numbered_mem.1 hp⟩
  unfold mergeTest
  refine assertEach_error (fun p hp => ?_) ⟨(i, g), numbered_mem.2 hg, ?_⟩
  · obtain ⟨i, g⟩ := p
    exact assertEach_or fun q hq => lodOr i g hp q.1 q.2 hq
  · refine assertEach_error (fun q hq => lodOr i g (numbered_mem.2 hg) q.1 q.2 hq)
      ⟨(j, l), numbered_mem.2 hl, ?_⟩
    refine assertEach_error (fun p hp => ?_) ⟨(k, c), numbered_mem.2 hc, assertMergedMat_missing hmiss⟩
    obtain ⟨k, c⟩ := p
    exact one i j k c ⟨g, l, hg, hl, numbered_mem.1 hp⟩

theorem assertEach_congr₂ {α β : Type} {f : Nat × α → Except Err Bool} {g : Nat × β → Except Err Bool}
    {R : α → β → Prop} {l : List α} {r : List β} (h : List.Forall₂ R l r)
    (hfg : ∀ i a b, R a b → f (i, a) = g (i, b)) : assertEach f (numbered l) = assertEach g (numbered r) := by
  have key : ∀ (is : List Nat) (l : List α) (r : List β), List.Forall₂ R l r →
      assertEach f (is.zip l) = assertEach g (is.zip r) := by
    intro is l r h
    induction h generalizing is with
    | nil => simp [assertEach]
    | cons h1 _ ih =>
      rcases is with _ | ⟨i, is⟩
      · rfl
      · rw [List.zip_cons_cons, List.zip_cons_cons, assertEach, assertEach, hfg i _ _ h1, ih is]
  unfold numbered
  rw [h.length_eq]
  exact key _ _ _ h

theorem mergeTest_counts {m m' o old : Mesh F} (h : EqualCounts m m') :
    mergeTest m o old = mergeTest m' o old := by
  unfold mergeTest
  refine assertEach_congr₂ h fun i g g' hg => ?_
  refine assertEach_congr₂ hg fun j l l' hl => ?_
  refine assertEach_congr₂ hl fun k a a' ha => ?_
  unfold assertMergedMat
  simp only [ha.1, ha.2]

/-! ## The order test -/

theorem geomVertices_window {m : Mesh F} {vs : Nat} {a : Mat F} {g : Geom F} (size : VertexSize m.vattrs vs)
    (first : MatIn m 1 0 0 a) (geom : m.geoms[1]? = some g) (start : 0 ≤ a.vstart) (n0 : 0 ≤ g.vertexCount)
    (w : List F) (agree : ∀ k : Nat, (k : Int) < g.vertexCount →
      w[a.vstart.toNat * vs + k]? = m.vertices[a.vstart.toNat * vs + k]?) (ix : OneOrMany Int) :
    geomVertices { m with vertices := w, index := ix } 1 = geomVertices m 1 := by
  have hs := (vertexSize_iff m.vattrs vs).2 size
  have hf : matAt m 1 0 0 = .ok a := matAt_matIn.2 first
  have hf' : matAt { m with vertices := w, index := ix } 1 0 0 = .ok a := hf
  unfold geomVertices
  simp only [hs, hf, hf', geom]
  obtain ⟨n, hn⟩ := Int.eq_ofNat_of_zero_le n0
  have hn' : (g.lods.map fun l => (l.materials.map Mat.vnum).sum).sum = (n : Int) := hn
  have h1 : a.vstart * (vs : Int) = ((a.vstart.toNat * vs : Nat) : Int) := by
    push_cast
    rw [Int.toNat_of_nonneg start]
  rw [hn', h1, ← Int.natCast_add, pySlice_nat, pySlice_nat]
  congr 1
  apply List.ext_getElem?
  intro k
  rw [List.getElem?_take, List.getElem?_take, List.getElem?_drop, List.getElem?_drop]
  split
  · rename_i hk
    exact agree k (by rw [hn]; omega)
  · rfl

theorem orderTest_window [DecidableEq F] {old m : Mesh F} {vs : Nat} {a : Mat F} {g : Geom F}
    (size : VertexSize m.vattrs vs) (first : MatIn m 1 0 0 a) (geom : m.geoms[1]? = some g)
    (start : 0 ≤ a.vstart) (n0 : 0 ≤ g.vertexCount) (w : List F) (len : w.length = m.vertices.length)
    (agree : ∀ k : Nat, (k : Int) < g.vertexCount →
      w[a.vstart.toNat * vs + k]? = m.vertices[a.vstart.toNat * vs + k]?) (ix : OneOrMany Int) :
    orderTest old { m with vertices := w, index := ix } = orderTest old m := by
  unfold orderTest
  rw [geomVertices_window size first geom start n0 w agree ix]
  have h1 : ∀ i j k, matAt { m with vertices := w, index := ix } i j k = matAt m i j k := fun _ _ _ => rfl
  have h2 : firstMats { m with vertices := w, index := ix } 0 = firstMats m 0 := rfl
  have h3 : assertOrderedMat old { m with vertices := w, index := ix } = assertOrderedMat old m := rfl
  rw [h1, h1, h2, h3, len]

/-! ## The translate test -/

theorem translateTest_tells {old : List F64} {m : Mesh F64} {vs o : Nat} {p : VAttr} {d0 d1 d2 : F64}
    (inside : Inside vs m) (pos : PositionAt vs o m p) (three : p.vartype = 2) (known : AttrsKnown m)
    (len : old.length = m.vertices.length) :
    translateTest F64.feq old m [d0, d1, d2] = .ok true ↔
      ∀ a ∈ m.mats, ∀ v : Nat, (v : Int) < a.vnum → ∃ x y : Vec3 F64,
        vec3At old ((a.vstart.toNat + v) * vs + o) = some x ∧
        vec3At m.vertices ((a.vstart.toNat + v) * vs + o) = some y ∧
        NumEq (F64.sub y.x d0) x.x ∧ NumEq (F64.sub y.y d1) x.y ∧ NumEq (F64.sub y.z d2) x.z := by
  have one : ∀ a ∈ m.mats, ∀ v : Nat, (v : Int) < a.vnum →
      (assertMovedVertex F64.feq old m [d0, d1, d2] a v = .ok true ↔ ∃ x y : Vec3 F64,
        vec3At old ((a.vstart.toNat + v) * vs + o) = some x ∧
        vec3At m.vertices ((a.vstart.toNat + v) * vs + o) = some y ∧
        NumEq (F64.sub y.x d0) x.x ∧ NumEq (F64.sub y.y d1) x.y ∧ NumEq (F64.sub y.z d2) x.z) := by
    intro a ha v hv
    obtain ⟨y, hy, hr⟩ := read_position pos three known (inside.verts a ha) hv
    obtain ⟨x, hx, hr'⟩ := read_position (m := { m with vertices := old }) (p := p) (a := a) (v := v)
      (pos.congr rfl rfl) three known
      (by have := inside.verts a ha; unfold VertsInside at this ⊢; rw [len]; exact this) hv
    unfold assertMovedVertex
    rw [(vertexSize_iff _ _).2 inside.size]
    simp only at hr' hx ⊢
    rw [hr, hr', hx, hy]
    simp only [List.zip_cons_cons, List.zip_nil_right, List.map_cons, List.map_nil, assertLists,
      Bool.and_true, Except.ok.injEq, Bool.and_eq_true, feq_iff]
    constructor
    · intro h; exact ⟨x, y, rfl, rfl, h⟩
    · rintro ⟨x', y', ex, ey, h⟩
      cases ex; cases ey
      exact h
  rw [translateTest_mats]
  constructor
  · intro h a ha v hv
    exact (one a ha v hv).1 (h a ha v (by omega))
  · intro h a ha v hv
    exact (one a ha v (by omega)).2 (h a ha v (by omega))

end Bf2
