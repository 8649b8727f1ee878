import Verif.OldGenTests
import Verif.OldTestsLemmas
import Verif.RepoDetectLemmas
import Verif.OldEqualLemmas
import Verif.OldOrderLemmas
import Verif.OldHistoryLemmas

/-! # Lemmas about the tests of the vertex generator (C160) -/

namespace Bf2

variable {F : Type}

theorem assertEach_first {α : Type} {f : α → Except Err Bool} {a : α} {l : List α}
    (h : f a = .ok false) : assertEach f (a :: l) = .ok false := by
  rw [assertEach, h]

theorem assertEach_false {α : Type} {f : α → Except Err Bool} {l : List α}
    (h : ∀ a ∈ l, ∃ b, f a = .ok b) {a : α} (ha : a ∈ l) (hf : f a = .ok false) :
    assertEach f l = .ok false := by
  obtain ⟨b, hb⟩ := assertEach_total h
  cases b
  · exact hb
  · rw [assertEach_true] at hb
    rw [hb a ha] at hf
    cases hf

theorem oldDeclLen_known {t : Int} (h : OldKnownType t) (h3 : t ≠ 3) : ∃ n, oldDeclLen t = .ok n := by
  simp only [OldKnownType, List.mem_cons, List.not_mem_nil, or_false] at h
  rcases h with rfl | rfl | rfl | rfl | rfl | rfl | rfl
  all_goals first | exact absurd rfl h3 | exact ⟨_, rfl⟩

/-- The object of a vertex: what it has is not empty, and every attribute in use has its floats. -/
theorem foldE_read_at {vs o : Nat} {m : OldMesh F} {attrs : List VAttr} {v : VObj F} (i : Nat)
    (hvf : m.vertformat ≠ 0) (hsmall : vs ≤ 65535) (hp : Packs m.vertformat vs o attrs)
    (hlen : (i + 1) * vs ≤ m.vertices.length) (hh : Holds v attrs ((vert vs m.vertices i).drop o)) :
    ∀ a ∈ attrs, a.flag ≠ 255 → ∃ n : Nat, oldFloats a.vartype = some n ∧ 0 < n ∧
      v a.usage = some (pySlice m.vertices (i * vs + intTrueDiv a.offset m.vertformat)
        (i * vs + intTrueDiv a.offset m.vertformat + n)) ∧
      (pySlice m.vertices (i * vs + intTrueDiv a.offset m.vertformat)
        (i * vs + intTrueDiv a.offset m.vertformat + n)).length = n := by
  have hle : i * vs + vs ≤ m.vertices.length := by
    have := hlen; rw [Nat.add_mul, Nat.one_mul] at this; exact this
  induction hp with
  | done => simp
  | @unused o a as hf hp ih =>
    generalize hw : (vert vs m.vertices i).drop o = w at hh
    cases hh with
    | unused _ hh =>
      intro b hb hbf
      rcases List.mem_cons.1 hb with rfl | hb
      · exact absurd hf hbf
      · exact ih (by rw [hw]; exact hh) b hb hbf
    | used hf' _ _ _ => exact absurd hf hf'
  | @used o n a as hf hn hoff hp ih =>
    generalize hw : (vert vs m.vertices i).drop o = w at hh
    cases hh with
    | unused hf' _ => exact absurd hf' hf
    | @used _ _ x w' _ hx hv hh =>
      rw [hn] at hx
      injection hx with hx
      have ho := hp.le
      have hd : (vert vs m.vertices i).drop (o + n) = w' := by
        rw [← List.drop_drop, hw, hx, List.drop_left]
      have ht : ((vert vs m.vertices i).drop o).take n = x := by
        rw [hw, hx, List.take_left]
      intro b hb hbf
      rcases List.mem_cons.1 hb with rfl | hb
      · refine ⟨n, hn, ?_, ?_⟩
        · unfold oldFloats at hn
          split at hn <;> first | (injection hn with hn; omega) | simp at hn
        · rw [intTrueDiv_exact hvf hoff (by
            rw [abs_of_nonneg (by positivity)]
            have : (o : ℤ) ≤ 65535 := by omega
            exact le_trans this (by norm_num))]
          have e : pySlice m.vertices ((i : Int) * vs + o) (i * vs + o + n) = x := by
            rw [← ht]
            have : pySlice m.vertices ((i : Int) * vs + o) (i * vs + o + n) =
                pySlice m.vertices ((i * vs + o : Nat) : Int) ((i * vs + o + n : Nat) : Int) := by
              push_cast; rfl
            rw [this, pySlice_nat, vert, List.drop_take, List.drop_drop, List.take_take]
            congr 1
            omega
          rw [e]
          exact ⟨hv, hx.symm⟩
      · exact ih (by rw [hd]; exact hh) b hb hbf

theorem getVertex_at {vs : Nat} {m : OldMesh F}
    (hp : PackedTable vs m.vertformat m.vertstride m.vattrs) (i : Nat)
    (hlen : (i + 1) * vs ≤ m.vertices.length) :
    intTrueDiv m.vertstride m.vertformat = vs ∧
    ∃ v, getVertex m i = .ok v ∧
      (∀ u x, v u = some x → x ≠ []) ∧
      ∀ a ∈ m.vattrs, a.flag ≠ 255 → ∃ n : Nat, oldFloats a.vartype = some n ∧
        v a.usage = some (pySlice m.vertices (i * vs + intTrueDiv a.offset m.vertformat)
          (i * vs + intTrueDiv a.offset m.vertformat + n)) ∧
        (pySlice m.vertices (i * vs + intTrueDiv a.offset m.vertformat)
          (i * vs + intTrueDiv a.offset m.vertformat + n)).length = n := by
  have hvs := intTrueDiv_exact hp.format hp.stride (by
    rw [abs_of_nonneg (by positivity)]
    have : (vs : ℤ) ≤ 65535 := by exact_mod_cast hp.small
    exact le_trans this (by norm_num))
  obtain ⟨v, hv, -, hh, hk⟩ := foldE_read i hp.format hp.small hp.known hp.packs hp.distinct hlen
    (fun _ => none)
  have hat := foldE_read_at i hp.format hp.small hp.packs hlen hh
  refine ⟨hvs, v, ?_, ?_, ?_⟩
  · unfold getVertex
    rw [if_neg hp.format, hvs]
    exact hv
  · intro u x hx
    by_cases hu : u ∈ usedUsages m.vattrs
    · simp only [usedUsages, List.mem_map, List.mem_filter] at hu
      obtain ⟨b, ⟨hb, hb'⟩, rfl⟩ := hu
      obtain ⟨n, -, h0, h1, h2⟩ := hat b hb (by simpa using hb')
      rw [h1] at hx
      injection hx with hx
      rw [← hx]
      intro h
      rw [h] at h2
      simp at h2
      omega
    · rw [hk u hu] at hx
      cases hx
  · intro a ha hf
    obtain ⟨n, h1, -, h2, h3⟩ := hat a ha hf
    exact ⟨n, h1, h2, h3⟩

theorem pySlice_map {α β : Type} (f : α → β) (l : List α) (s e : Int) :
    pySlice (l.map f) s e = (pySlice l s e).map f := by
  simp [pySlice, List.map_take, List.map_drop]

theorem selected_holds {vs n : Nat} {m : OldMesh F} (hn : m.vertnum = n) (hin : VertsExist m)
    {vo : List (VObj F)} (hh : List.Forall₂ (fun v w => Holds v m.vattrs w) vo (verts vs n m.vertices)) :
    List.Forall₂ (fun v w => Holds v m.vattrs w)
      (m.mats.flatMap fun a => pySlice vo a.vstart (a.vstart + a.vnum))
      (m.ids.map (vert vs m.vertices)) := by
  unfold OldMesh.ids
  rw [List.map_flatMap]
  have hall : ∀ a ∈ m.mats, List.Forall₂ (fun v w => Holds v m.vattrs w)
      (pySlice vo a.vstart (a.vstart + a.vnum)) (a.ids.map (vert vs m.vertices)) := by
    intro a ha
    obtain ⟨h0, h1, h2⟩ := hin a ha
    have h := forall₂_pySlice hh a.vstart (a.vstart + a.vnum)
    unfold verts at h
    rw [pySlice_map] at h
    have e := matIds_eq (n := n) h0 h1 (by omega)
    unfold matIds at e
    rw [e] at h
    exact h
  generalize m.mats = as at hall
  induction as with
  | nil => exact .nil
  | cons a as ih =>
    rw [List.flatMap_cons, List.flatMap_cons]
    exact (List.rel_append (hall a (by simp)) (ih fun b hb => hall b (by simp [hb])))

theorem sameVertices_true (m c : OldMesh F64) : sameVertices m c = true ↔
    m.vertsList = c.vertsList ∧ NumsEq m.vertices c.vertices := by
  rw [sameVertices, Bool.and_eq_true, beq_iff_eq, assertLists_true feq_iff, NumsEq]

end Bf2
