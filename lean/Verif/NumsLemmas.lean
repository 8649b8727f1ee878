import Verif.NumsSpec
import Verif.TranslateLemmas
import Verif.FloatArith

/-! # Lemmas about integer offsets and angles -/

namespace Bf2

theorem abs_cast (i : Int) : (2 ^ 1024 - 2 ^ 970 : ℚ) ≤ |(i : ℚ)| ↔ (2 ^ 1024 - 2 ^ 970 : Int) ≤ |i| := by
  rw [show (2 ^ 1024 - 2 ^ 970 : ℚ) = ((2 ^ 1024 - 2 ^ 970 : Int) : ℚ) by push_cast; rfl,
    ← Int.cast_abs, Int.cast_le]

theorem int_isInf (i : Int) : (F64.ofRat false i).isInf = true ↔ (2 ^ 1024 - 2 ^ 970 : Int) ≤ |i| := by
  rw [(ofRat_rounded false (i : ℚ)).overflow, abs_cast]

theorem toDouble_error {n : Num} {e : Err} : n.toDouble = .error e ↔ TooLarge n ∧ e = .overflowError := by
  unfold Num.toDouble TooLarge
  rcases n with i | x
  · simp only [Num.int.injEq]
    by_cases h : (F64.ofRat false i).isInf = true
    · rw [if_pos h]
      rw [int_isInf] at h
      constructor
      · intro he
        cases he
        exact ⟨⟨i, rfl, h⟩, rfl⟩
      · rintro ⟨-, rfl⟩
        rfl
    · rw [if_neg h]
      rw [int_isInf] at h
      constructor
      · intro he; cases he
      · rintro ⟨⟨j, rfl, hj⟩, -⟩
        exact absurd hj h
  · simp

theorem notTooLarge {n : Num} (h : ¬ TooLarge n) : ∃ d, n.toDouble = .ok d ∧ StandsFor n d := by
  rcases hd : n.toDouble with e | d
  · exact absurd (toDouble_error.1 hd).1 h
  · refine ⟨d, rfl, ?_⟩
    unfold Num.toDouble at hd
    rcases n with i | x
    · simp only at hd
      by_cases hi : (F64.ofRat false i).isInf = true
      · rw [if_pos hi] at hd; cases hd
      · rw [if_neg hi] at hd
        injection hd with hd
        subst hd
        have r := ofRat_rounded false (i : ℚ)
        refine ⟨?_, r, fun h0 => ?_⟩
        · have h1 := r.notNaN
          unfold F64.isNaN at h1
          unfold F64.isInf at hi
          unfold F64.isFin
          simp only [decide_eq_true_eq, decide_eq_false_iff_not] at *
          omega
        · subst h0
          simp [F64.ofRat, F64.mk']
    · injection hd with hd
      exact hd.symm

theorem notTooLarge_all {ns : List Num} (h : ∀ n ∈ ns, ¬ TooLarge n) :
    ∃ ds, List.Forall₂ (fun n d => n.toDouble = .ok d) ns ds ∧ List.Forall₂ StandsFor ns ds := by
  induction ns with
  | nil => exact ⟨[], .nil, .nil⟩
  | cons n ns ih =>
    obtain ⟨d, h1, h2⟩ := notTooLarge (h n (by simp))
    obtain ⟨ds, h3, h4⟩ := ih fun x hx => h x (by simp [hx])
    exact ⟨d :: ds, .cons h1 h3, .cons h2 h4⟩

theorem strFails_iff (limit : Option Nat) (l : List Num) : strFails limit l = true ↔ TooLong limit l := by
  unfold strFails TooLong
  rw [List.any_eq_true]
  have cast : ∀ (n : Nat) (i : Int), (10 ^ n : Int) ≤ |i| ↔ 10 ^ n ≤ i.natAbs := by
    intro n i
    rw [Int.abs_eq_natAbs]
    exact_mod_cast Iff.rfl
  constructor
  · rintro ⟨x, hx, h⟩
    rcases x with i | x
    · rcases limit with _ | n
      · simp at h
      · exact ⟨n, i, rfl, hx, (cast n i).2 (by simpa using h)⟩
    · simp at h
  · rintro ⟨n, i, rfl, hi, h⟩
    exact ⟨_, hi, by simpa using (cast n i).1 h⟩

theorem addNums_ok {ns : List Num} {ds : List F64}
    (h : List.Forall₂ (fun n d => n.toDouble = .ok d) ns ds) (o : Int) (k : Nat) (v : List F64) :
    addNums o k ns v = addAll o k ds v := by
  induction h generalizing k v with
  | nil => rfl
  | @cons n d ns ds hd _ ih =>
    rw [addNums, addAll, addNum, addAt]
    rcases pyPos v.length (o + k) with _ | j
    · rfl
    · simp only [hd]
      exact ih _ _

theorem translateVertexNum_ok {ns : List Num} {ds : List F64}
    (h : List.Forall₂ (fun n d => n.toDouble = .ok d) ns ds) (m : Mesh F64) :
    translateVertexNum m ns = translateVertex m ds := by
  funext v
  unfold translateVertexNum translateVertex
  rcases posOffset m.vertformat m.vattrs with e | _ | o
  · rfl
  · cases h <;> rfl
  · exact addNums_ok h o 0 v

theorem addNums_large {ns : List Num} (large : ∃ n ∈ ns, TooLarge n) (o k : Nat) (v : List F64)
    (h : o + k + ns.length ≤ v.length) : addNums (o : Int) k ns v = .error .overflowError := by
  induction ns generalizing k v with
  | nil => obtain ⟨n, hn, -⟩ := large; cases hn
  | cons n ns ih =>
    rw [List.length_cons] at h
    have hp : pyPos v.length ((o : Int) + k) = some (o + k) := by
      have hk : ((o : Int) + k) = ((o + k : Nat) : Int) := by push_cast; rfl
      unfold pyPos
      have hn : ¬ ((o + k : Nat) : Int) < 0 := by omega
      simp only [hk, if_neg hn]
      rw [if_pos (by omega), Int.toNat_natCast]
    rw [addNums, addNum, hp]
    simp only
    rcases hd : n.toDouble with e | d
    · have := (toDouble_error.1 hd).2
      subst this
      rfl
    · simp only
      refine ih ?_ (k + 1) _ (by rw [List.length_modify]; omega)
      obtain ⟨x, hx, hl⟩ := large
      rcases List.mem_cons.1 hx with rfl | hx
      · rw [toDouble_error.2 ⟨hl, rfl⟩] at hd; cases hd
      · exact ⟨x, hx, hl⟩

/-- A vertex edit that raises the same exception on every vertex. -/
theorem editVertices_raises {vs : Nat} {m : Mesh F64} {f : List F64 → Except Err (List F64)} {e : Err}
    (inside : Inside vs m) (hf : ∀ v : List F64, v.length = vs → f v = .error e)
    (vertex : ∃ a ∈ m.mats, 0 < a.vnum) : setVertices m (editVertices f m) = (m, some e) := by
  have hmat : ∀ b ∈ m.mats, editMat f m b = flatMapE f (chunks vs (vertexData vs m b)) := by
    intro b hb
    rw [editMat, (vertexSize_iff _ _).2 inside.size]
    simp only
    rw [if_neg (by have := inside.pos; omega), matVertices_eq _ _ _ (inside.verts b hb)]
  have hlen : ∀ b ∈ m.mats, ∀ c ∈ chunks vs (vertexData vs m b), c.length = vs := fun b hb c hc =>
    chunks_length _ _ hc _ (vertexData_length _ _ _ (inside.verts b hb))
  rw [editVertices_flat, flatMapE_error (e := e)]
  · rfl
  · intro b hb
    rw [hmat b hb]
    cases hc : chunks vs (vertexData vs m b) with
    | nil => left; exact ⟨[], rfl⟩
    | cons c cs => right; rw [flatMapE, hf c (hlen b hb c (by simp [hc]))]
  · obtain ⟨b, hb, hn⟩ := vertex
    refine ⟨b, hb, ?_⟩
    rw [hmat b hb]
    have hne : vertexData vs m b ≠ [] := by
      intro h0
      have := vertexData_length _ _ _ (inside.verts b hb)
      rw [h0, List.length_nil] at this
      have : 0 < b.vnum.toNat * vs := Nat.mul_pos (by omega) inside.pos
      omega
    obtain ⟨c, cs, hc⟩ := List.exists_cons_of_ne_nil (chunks_ne_nil inside.pos _ hne)
    rw [hc, flatMapE, hf c (hlen b hb c (by simp [hc]))]

theorem rndMag_natAbs {i : Int} (h : |i| ≤ 2 ^ 53) : rndMag 52 (-1074) |(i : ℚ)| = |(i : ℚ)| := by
  have hc : |(i : ℚ)| = (i.natAbs : ℚ) := by
    rw [← Int.cast_abs, Int.abs_eq_natAbs, Int.cast_natCast]
  refine rndMag_exact 52 (-1074) (abs_nonneg _) i.natAbs 0 ?_ (by norm_num) (by rw [hc]; simp)
  rw [Int.abs_eq_natAbs] at h
  change i.natAbs ≤ 2 ^ 53
  omega

/-- Integers of at most 53 bits are doubles. -/
theorem standsFor_exact {i : Int} {d : F64} (h : |i| ≤ 2 ^ 53) (hd : StandsFor (.int i) d) : d.value = i := by
  obtain ⟨hf, hr, -⟩ := hd
  have ha := abs_nonneg (i : ℚ)
  obtain ⟨s, he, hs1, hs2, -⟩ := ofRat_form false (i : ℚ)
  have hfin : ¬ (F64.ofRat false i).isInf = true := by
    rw [int_isInf]
    intro h'
    have : (2 ^ 53 : Int) < 2 ^ 1024 - 2 ^ 970 := by decide +kernel
    exact absurd (le_trans h' h) (not_le.2 this)
  have hnn := (ofRat_rounded false (i : ℚ)).notNaN
  have hmag : (F64.ofRat false i).mag = min inf64 (encMag 52 (-1074) |(i : ℚ)|) := by
    rw [he]; exact F64.mk'_mag (min_le_left _ _)
  have hlt : min inf64 (encMag 52 (-1074) |(i : ℚ)|) < inf64 := by
    unfold F64.isInf at hfin
    unfold F64.isNaN at hnn
    simp only [decide_eq_true_eq, decide_eq_false_iff_not] at hfin hnn
    omega
  have hval : (F64.ofRat false i).value = i := by
    rw [value_eq, hmag, (encMag_rounded ha).2 hlt, dec_enc 52 (-1074) ha, rndMag_natAbs h, he]
    change (if s then (-1 : ℚ) else 1) * _ = _
    rcases lt_trichotomy (i : ℚ) 0 with h0 | h0 | h0
    · rw [hs1 h0, abs_of_neg h0]; simp
    · rw [h0]; simp
    · rw [hs2 h0, abs_of_pos h0]; simp
  exact (hr.exact (by unfold F64.isFin; rw [hmag]; simpa using hlt) hval).2

theorem radiansAt_ok [Libm F64] {ns : List Num} {ds : List F64}
    (h : List.Forall₂ (fun n d => n.toDouble = .ok d) ns ds) (k : Nat) :
    radiansAt ns k = match ds[k]? with
      | none => .error .indexError
      | some d => .ok (Libm.radians d) := by
  induction h generalizing k with
  | nil => rfl
  | @cons n d ns ds hd _ ih =>
    rcases k with _ | k
    · simp [radiansAt, hd]
    · have := ih k
      unfold radiansAt at this ⊢
      simpa using this

end Bf2
