import Verif.EditSpec
import Verif.FloatLemmas

/-! # Lemmas about loops, slices, vertex chunks and material lists -/

namespace Bf2

variable {F : Type} {α β σ : Type}

/-! ## Slices -/

theorem clamp_nat (n : Nat) (i : Nat) : clamp n (i : Int) = min i n := by
  unfold clamp
  rw [if_neg (by omega)]; simp

theorem pySlice_nat (l : List α) (a b : Nat) :
    pySlice l (a : Int) (b : Int) = (l.drop a).take (b - a) := by
  unfold pySlice
  rw [clamp_nat, clamp_nat]
  rcases Nat.le_total a l.length with h | h
  · rw [Nat.min_eq_left h]
    rcases Nat.le_total b l.length with hb | hb
    · rw [Nat.min_eq_left hb]
    · rw [Nat.min_eq_right hb, List.take_of_length_le (i := b - a) (by simp; omega),
        List.take_of_length_le (by simp)]
  · rw [Nat.min_eq_right h, List.drop_eq_nil_of_le (i := a) h, List.drop_eq_nil_of_le (Nat.le_refl _)]
    simp

theorem pySlice_block (l : List α) {a n : Int} (ha : 0 ≤ a) (hn : 0 ≤ n) :
    pySlice l a (a + n) = block l a n := by
  obtain ⟨a, rfl⟩ := Int.eq_ofNat_of_zero_le ha
  obtain ⟨n, rfl⟩ := Int.eq_ofNat_of_zero_le hn
  have := pySlice_nat l a (a + n)
  rw [Int.natCast_add] at this
  rw [this]
  simp [block]

theorem block_length (l : List α) {a n : Int} (ha : 0 ≤ a) (_hn : 0 ≤ n)
    (h : a + n ≤ l.length) : (block l a n).length = n.toNat := by
  simp [block]; omega

theorem matVertices_eq (vs : Nat) (m : Mesh F) (a : Mat F) (h : VertsInside vs m a) :
    matVertices vs m.vertices a = vertexData vs m a := by
  obtain ⟨h1, h2, _⟩ := h
  exact pySlice_block _ (Int.mul_nonneg h1 (by omega)) (Int.mul_nonneg h2 (by omega))

theorem vertexData_length (vs : Nat) (m : Mesh F) (a : Mat F) (h : VertsInside vs m a) :
    (vertexData vs m a).length = a.vnum.toNat * vs := by
  obtain ⟨h1, h2, h3⟩ := h
  unfold vertexData
  rw [block_length _ (Int.mul_nonneg h1 (by omega)) (Int.mul_nonneg h2 (by omega))
    (by rw [← Int.add_mul]; exact h3)]
  obtain ⟨n, hn⟩ := Int.eq_ofNat_of_zero_le h2
  rw [hn, Int.toNat_natCast, ← Int.natCast_mul, Int.toNat_natCast]

/-! ## Vertex size -/

theorem declLen_eq (t : Int) : declLen t = match typeFloats t with
    | some n => .ok n
    | none => .error .valueError := by
  unfold declLen typeFloats
  split
  · subst_vars; rfl
  split
  · subst_vars; rfl
  split
  · subst_vars; rfl
  split
  · subst_vars; rfl
  split
  · subst_vars; rfl
  split
  · subst_vars; rfl
  · split <;> simp_all

theorem vertexSize_iff (attrs : List VAttr) (n : Nat) :
    vertexSize attrs = .ok n ↔ VertexSize attrs n := by
  induction attrs generalizing n with
  | nil =>
    constructor
    · intro h; cases h; exact ⟨[], rfl, rfl⟩
    · rintro ⟨lens, h1, h2⟩
      have : lens = [] := by simpa using h1.symm
      subst this; simp at h2; subst h2; rfl
  | cons a as ih =>
    unfold vertexSize
    by_cases hf : a.flag = 0
    · rw [if_pos hf]
      constructor
      · intro h
        rw [declLen_eq] at h
        split at h
        · cases h
        · rename_i k hk
          split at h
          · cases h
          · rename_i r hr
            cases h
            obtain ⟨lens, h1, h2⟩ := (ih r).1 hr
            refine ⟨k :: lens, ?_, by simp [h2]⟩
            have : typeFloats a.vartype = some k := by
              split at hk <;> simp_all
            simp [hf, h1, this]
      · rintro ⟨lens, h1, h2⟩
        rw [List.filter_cons_of_pos (by simp [hf])] at h1
        cases lens with
        | nil => simp at h1
        | cons k lens =>
          simp only [List.map_cons, List.cons.injEq] at h1
          rw [declLen_eq, h1.1]
          have := (ih lens.sum).2 ⟨lens, h1.2, rfl⟩
          simp only [this]
          simp at h2
          rw [h2]
    · rw [if_neg hf, ih]
      unfold VertexSize
      rw [List.filter_cons_of_neg (by simp [hf])]

/-! ## Loops -/

theorem flatMapE_append (f : α → Except Err (List β)) (l r : List α) :
    flatMapE f (l ++ r) = match flatMapE f l with
      | .error e => .error e
      | .ok x => match flatMapE f r with
        | .error e => .error e
        | .ok y => .ok (x ++ y) := by
  induction l with
  | nil =>
    simp only [List.nil_append, flatMapE]
    split <;> simp_all
  | cons a as ih =>
    simp only [List.cons_append, flatMapE, ih]
    cases f a with
    | error e => rfl
    | ok x =>
      simp only
      cases flatMapE f as with
      | error e => rfl
      | ok y =>
        simp only
        cases flatMapE f r with
        | error e => rfl
        | ok z => simp

theorem flatMapE_flatMap {γ : Type} (f : α → Except Err (List β)) (g : γ → List α) (l : List γ) :
    flatMapE (fun c => flatMapE f (g c)) l = flatMapE f (l.flatMap g) := by
  induction l with
  | nil => rfl
  | cons c cs ih => simp only [flatMapE, ih, List.flatMap_cons, flatMapE_append]; rfl

theorem flatMapE_ok (f : α → Except Err (List β)) (g : α → List β) (l : List α)
    (h : ∀ a ∈ l, f a = .ok (g a)) : flatMapE f l = .ok (l.flatMap g) := by
  induction l with
  | nil => rfl
  | cons a as ih =>
    simp only [flatMapE, h a (by simp), ih (fun b hb => h b (by simp [hb])), List.flatMap_cons]

theorem flatMapE_inv {f : α → Except Err (List β)} {l : List α} {r : List β}
    (h : flatMapE f l = .ok r) : ∃ g : α → List β, r = l.flatMap g ∧ ∀ a ∈ l, f a = .ok (g a) := by
  refine ⟨fun a => match f a with | .ok x => x | .error _ => [], ?_, ?_⟩
  · induction l generalizing r with
    | nil => cases h; rfl
    | cons a as ih =>
      simp only [flatMapE] at h
      split at h
      · cases h
      · rename_i x hx
        split at h
        · cases h
        · rename_i y hy
          cases h
          rw [List.flatMap_cons, ← ih hy, hx]
  · induction l generalizing r with
    | nil => simp
    | cons a as ih =>
      simp only [flatMapE] at h
      split at h
      · cases h
      · rename_i x hx
        split at h
        · cases h
        · rename_i y hy
          intro b hb
          rcases List.mem_cons.1 hb with rfl | hb
          · simp only [hx]
          · exact ih hy b hb

/-- A loop in which every step succeeds or raises `e`, and one raises, raises `e`. -/
theorem flatMapE_error {f : α → Except Err (List β)} {e : Err} {l : List α}
    (h : ∀ a ∈ l, (∃ x, f a = .ok x) ∨ f a = .error e) (he : ∃ a ∈ l, f a = .error e) :
    flatMapE f l = .error e := by
  induction l with
  | nil => obtain ⟨a, ha, _⟩ := he; cases ha
  | cons a as ih =>
    rw [flatMapE]
    rcases h a (by simp) with ⟨x, hx⟩ | hx
    · rw [hx]
      simp only
      rw [ih fun b hb => h b (by simp [hb])]
      obtain ⟨b, hb, hbe⟩ := he
      rcases List.mem_cons.1 hb with rfl | hb
      · rw [hx] at hbe; cases hbe
      · exact ⟨b, hb, hbe⟩
    · rw [hx]

theorem vertexSize_error (attrs : List VAttr) {e : Err} (h : vertexSize attrs = .error e) :
    e = .valueError := by
  induction attrs with
  | nil => cases h
  | cons a as ih =>
    unfold vertexSize at h
    split at h
    · rw [declLen_eq] at h
      split at h
      · rename_i h'
        split at h'
        · cases h'
        · cases h'; cases h; rfl
      · split at h
        · cases h; exact ih (by assumption)
        · cases h
    · exact ih h

theorem vertexSize_unknown {attrs : List VAttr} (h : ∀ n, ¬ VertexSize attrs n) :
    vertexSize attrs = .error .valueError := by
  cases hv : vertexSize attrs with
  | ok n => exact absurd ((vertexSize_iff _ _).1 hv) (h n)
  | error e => rw [vertexSize_error _ hv]

theorem editVertices_flat (edit : List F → Except Err (List F)) (m : Mesh F) :
    editVertices edit m = flatMapE (editMat edit m) m.mats := by
  unfold editVertices Mesh.mats
  rw [← flatMapE_flatMap]
  congr 1
  funext g
  exact flatMapE_flatMap _ _ _

/-! ## Chunks -/

theorem chunks_nil {vs : Nat} (h : 0 < vs) : chunks vs ([] : List F) = [] := by
  unfold chunks
  rw [List.length_nil, Nat.div_eq_of_lt (by omega)]; rfl

theorem chunks_append {vs : Nat} (h : 0 < vs) (a b : List F) (ha : a.length = vs) :
    chunks vs (a ++ b) = a :: chunks vs b := by
  unfold chunks
  have : ((a ++ b).length + vs - 1) / vs = (b.length + vs - 1) / vs + 1 := by
    rw [← Nat.add_div_right _ h]
    congr 1
    simp; omega
  rw [this, List.range_succ_eq_map, List.map_cons, List.map_map]
  congr 1
  · rw [pySlice_nat]; simp [ha]
  · apply List.map_congr_left
    intro i _
    simp only [Function.comp, pySlice_nat]
    have e1 : (i.succ * vs) = a.length + i * vs := by rw [ha, Nat.succ_mul]; omega
    rw [e1, List.drop_append, List.drop_eq_nil_of_le (by omega)]
    simp

theorem chunks_length {vs : Nat} (l v : List F) (h : v ∈ chunks vs l)
    (n : Nat) (hl : l.length = n * vs) : v.length = vs := by
  rcases Nat.eq_zero_or_pos vs with rfl | hv
  · simp [chunks] at h
  · unfold chunks at h
    obtain ⟨i, hi, rfl⟩ := List.mem_map.1 h
    have hn : (l.length + vs - 1) / vs = n := by
      rw [hl]
      apply Nat.div_eq_of_lt_le
      · omega
      · rw [Nat.succ_mul]; omega
    rw [hn, List.mem_range] at hi
    rw [pySlice_nat, List.length_take, List.length_drop, hl]
    have : (i + 1) * vs ≤ n * vs := Nat.mul_le_mul_right _ hi
    rw [Nat.succ_mul] at this
    omega

theorem chunks_ne_nil {vs : Nat} (hv : 0 < vs) (l : List F) (h : l ≠ []) : chunks vs l ≠ [] := by
  unfold chunks
  have : 0 < l.length := List.length_pos_of_ne_nil h
  have : 0 < (l.length + vs - 1) / vs := Nat.div_pos (by omega) hv
  intro hc
  rw [List.map_eq_nil_iff, List.range_eq_nil] at hc
  omega

/-- Induction over a list made of whole vertices. -/
theorem vertices_induction {vs : Nat} {P : List F → Prop} (hnil : P [])
    (hcons : ∀ a b : List F, a.length = vs → P b → P (a ++ b)) :
    ∀ (n : Nat) (l : List F), l.length = n * vs → P l := by
  intro n
  induction n with
  | zero =>
    intro l hl
    have : l = [] := List.length_eq_zero_iff.1 (by simpa using hl)
    subst this; exact hnil
  | succ n ih =>
    intro l hl
    rw [← List.take_append_drop vs l]
    rw [Nat.succ_mul] at hl
    exact hcons _ _ (by simp; omega) (ih _ (by simp; omega))

theorem flatMapE_chunks {vs : Nat} (hv : 0 < vs) (f : List F → Except Err (List F))
    (g : Nat → F → F) (hf : ∀ v : List F, v.length = vs → f v = .ok (v.mapIdx g))
    (n : Nat) (l : List F) (hl : l.length = n * vs) :
    flatMapE f (chunks vs l) = .ok (l.mapIdx fun i x => g (i % vs) x) := by
  refine vertices_induction (vs := vs)
    (P := fun l => flatMapE f (chunks vs l) = .ok (l.mapIdx fun i x => g (i % vs) x)) ?_ ?_ n l hl
  · rw [chunks_nil hv]; rfl
  · intro a b ha ih
    rw [chunks_append hv a b ha]
    simp only [flatMapE, hf a ha, ih, List.mapIdx_append]
    congr 2
    · rw [List.mapIdx_eq_mapIdx_iff]
      intro i hi
      rw [Nat.mod_eq_of_lt (by omega)]
    · rw [ha]
      congr 1
      funext i x
      rw [Nat.add_mod_right]

/-! ## Consecutive ranges -/

theorem sum_nonneg {l : List (Mat F)} {f : Mat F → Int} (h : ∀ a ∈ l, 0 ≤ f a) :
    0 ≤ (l.map f).sum := by
  induction l with
  | nil => simp
  | cons a as ih =>
    have := h a (by simp)
    have := ih fun b hb => h b (by simp [hb])
    simp; omega

theorem retile_length (v i : Int) (l : List (Mat F)) : (retile v i l).length = l.length := by
  induction l generalizing v i with
  | nil => rfl
  | cons a as ih => simp [retile, ih]

theorem retile_getElem? (v i : Int) (l : List (Mat F)) (k : Nat) :
    (retile v i l)[k]? = l[k]?.map fun a => { a with
      vstart := v + ((l.take k).map Mat.vnum).sum, istart := i + ((l.take k).map Mat.inum).sum } := by
  induction l generalizing v i k with
  | nil => simp [retile]
  | cons a as ih =>
    cases k with
    | zero => simp [retile]
    | succ k =>
      simp only [retile, List.getElem?_cons_succ, ih, List.take_succ_cons, List.map_cons,
        List.sum_cons]
      congr 1
      funext b
      congr 1 <;> omega

theorem retile_vnum (v i : Int) (l : List (Mat F)) :
    (retile v i l).map Mat.vnum = l.map Mat.vnum := by
  induction l generalizing v i with
  | nil => rfl
  | cons a as ih => simp [retile, ih]

theorem retile_inum (v i : Int) (l : List (Mat F)) :
    (retile v i l).map Mat.inum = l.map Mat.inum := by
  induction l generalizing v i with
  | nil => rfl
  | cons a as ih => simp [retile, ih]

/-- Blocks at consecutive places of a concatenation are its parts. -/
theorem block_flatten (ds : List (List α)) (i : Nat) (d : List α) (h : ds[i]? = some d)
    (a n : Int) (ha : a = ((ds.take i).map List.length).sum) (hn : n = d.length) :
    block ds.flatten a n = d := by
  subst ha hn
  unfold block
  have hl : ((ds.take i).map List.length).sum = (ds.take i).flatten.length := by
    rw [List.length_flatten]
  have hi : i < ds.length := by
    rw [List.getElem?_eq_some_iff] at h; exact h.1
  have hd : ds.drop i = d :: ds.drop (i + 1) := by
    rw [List.drop_eq_getElem_cons hi]
    congr 1
    rw [List.getElem?_eq_some_iff] at h; exact h.2
  have hf : ds.flatten = (ds.take i).flatten ++ (d ++ (ds.drop (i + 1)).flatten) := by
    rw [← List.flatten_cons, ← hd, ← List.flatten_append, List.take_append_drop]
  rw [hl, hf]
  simp

end Bf2
