import Verif.TranslateLemmas

/-! # Lemmas about `rotate` -/

namespace Bf2

variable {F : Type}

/-! ## Whole vertex arrays -/

theorem chunks_append_dvd {vs : Nat} (hv : 0 < vs) (n : Nat) (a b : List F)
    (ha : a.length = n * vs) : chunks vs (a ++ b) = chunks vs a ++ chunks vs b := by
  refine vertices_induction (vs := vs)
    (P := fun a => chunks vs (a ++ b) = chunks vs a ++ chunks vs b) ?_ ?_ n a ha
  · rw [chunks_nil hv]; rfl
  · intro c d hc ih
    rw [List.append_assoc, chunks_append hv c _ hc, chunks_append hv c _ hc, ih]; rfl

theorem chunks_flatMap {α : Type} {vs : Nat} (hv : 0 < vs) (l : List α) (f : α → List F)
    (h : ∀ a ∈ l, vs ∣ (f a).length) :
    chunks vs (l.flatMap f) = l.flatMap fun a => chunks vs (f a) := by
  induction l with
  | nil => exact chunks_nil hv
  | cons a as ih =>
    obtain ⟨n, hn⟩ := h a (by simp)
    rw [List.flatMap_cons, List.flatMap_cons,
      chunks_append_dvd hv n _ _ (by rw [hn, Nat.mul_comm]), ih fun b hb => h b (by simp [hb])]

theorem flatMapE_congr {α β : Type} {f g : α → Except Err (List β)} {l : List α}
    (h : ∀ a ∈ l, f a = g a) : flatMapE f l = flatMapE g l := by
  induction l with
  | nil => rfl
  | cons a as ih =>
    rw [flatMapE, flatMapE, h a (by simp), ih fun b hb => h b (by simp [hb])]

theorem editVertices_tiled {vs : Nat} {m : Mesh F} (ht : TiledVerts vs m)
    (edit : List F → Except Err (List F)) :
    editVertices edit m = flatMapE edit (chunks vs m.vertices) := by
  conv => rhs; rw [← ht.flat]
  rw [chunks_flatMap ht.pos _ _ fun b hb => vertexData_dvd (ht.inside b hb), ← flatMapE_flatMap,
    editVertices_flat]
  apply flatMapE_congr
  intro b hb
  rw [editMat, (vertexSize_iff _ _).2 ht.size]
  simp only
  rw [if_neg (by have := ht.pos; omega), matVertices_eq _ _ _ (ht.inside b hb)]

/-- Vertex `i` of an array of vertices of `vs` floats. -/
def vertexAt (vs : Nat) (l : List F) (i : Nat) : List F := (l.drop (i * vs)).take vs

theorem vertexAt_length {vs n : Nat} {l : List F} (hl : l.length = n * vs) {i : Nat} (hi : i < n) :
    (vertexAt vs l i).length = vs := by
  have : (i + 1) * vs ≤ n * vs := Nat.mul_le_mul_right _ hi
  rw [Nat.succ_mul] at this
  simp [vertexAt]; omega

theorem vertexAt_getElem? {vs : Nat} {l : List F} {i c : Nat} (hc : c < vs) :
    (vertexAt vs l i)[c]? = l[i * vs + c]? := by
  unfold vertexAt
  rw [List.getElem?_take, if_pos hc, List.getElem?_drop]

theorem vertexAt_append_zero {vs : Nat} (a b : List F) (ha : a.length = vs) :
    vertexAt vs (a ++ b) 0 = a := by
  simp [vertexAt, ha]

theorem vertexAt_append_succ {vs : Nat} (a b : List F) (ha : a.length = vs) (i : Nat) :
    vertexAt vs (a ++ b) (i + 1) = vertexAt vs b i := by
  unfold vertexAt
  rw [show (i + 1) * vs = a.length + i * vs by rw [ha, Nat.succ_mul]; omega,
    List.drop_append, List.drop_eq_nil_of_le (by omega)]
  simp

/-- What holds for every edited vertex holds for every vertex of the edited array. -/
theorem flatMapE_chunks_rel {vs : Nat} (hv : 0 < vs) (f : List F → Except Err (List F))
    (P : List F → List F → Prop)
    (hf : ∀ v v', v.length = vs → f v = .ok v' → v'.length = vs ∧ P v v') (n : Nat) :
    ∀ (l r : List F), l.length = n * vs → flatMapE f (chunks vs l) = .ok r →
      r.length = n * vs ∧ ∀ i < n, P (vertexAt vs l i) (vertexAt vs r i) := by
  induction n with
  | zero =>
    intro l r hl h
    have : l = [] := List.length_eq_zero_iff.1 (by simpa using hl)
    subst this
    rw [chunks_nil hv] at h
    cases h
    simp
  | succ n ih =>
    intro l r hl h
    rw [Nat.succ_mul] at hl
    have ha : (l.take vs).length = vs := by simp; omega
    rw [← List.take_append_drop vs l, chunks_append hv _ _ ha, flatMapE] at h
    split at h
    · cases h
    · rename_i x hx
      split at h
      · cases h
      · rename_i y hy
        cases h
        obtain ⟨hxl, hP⟩ := hf _ _ ha hx
        obtain ⟨hyl, hI⟩ := ih _ _ (by simp; omega) hy
        refine ⟨by rw [List.length_append, Nat.succ_mul]; omega, ?_⟩
        intro i hi
        rw [← List.take_append_drop vs l]
        cases i with
        | zero => rw [vertexAt_append_zero _ _ ha, vertexAt_append_zero _ _ hxl]; exact hP
        | succ i =>
          rw [vertexAt_append_succ _ _ ha, vertexAt_append_succ _ _ hxl]
          exact hI i (by omega)

/-- Edited vertices of lengths related to `k` make an array of a length related to `n * k`. -/
theorem flatMapE_chunks_length {vs : Nat} (hv : 0 < vs) (f : List F → Except Err (List F)) (k : Nat)
    (n : Nat) : ∀ (l r : List F), l.length = n * vs → flatMapE f (chunks vs l) = .ok r →
      ((∀ v w, v.length = vs → f v = .ok w → w.length ≤ k) → r.length ≤ n * k) ∧
      ((∀ v w, v.length = vs → f v = .ok w → w.length = k) → r.length = n * k) := by
  induction n with
  | zero =>
    intro l r hl h
    have : l = [] := List.length_eq_zero_iff.1 (by simpa using hl)
    subst this
    rw [chunks_nil hv] at h
    cases h
    simp
  | succ n ih =>
    intro l r hl h
    rw [Nat.succ_mul] at hl
    have ha : (l.take vs).length = vs := by simp; omega
    rw [← List.take_append_drop vs l, chunks_append hv _ _ ha, flatMapE] at h
    split at h
    · cases h
    · rename_i x hx
      split at h
      · cases h
      · rename_i y hy
        cases h
        obtain ⟨h1, h2⟩ := ih _ _ (by simp; omega) hy
        rw [List.length_append, Nat.succ_mul]
        exact ⟨fun H => by have := h1 H; have := H _ _ ha hx; omega,
          fun H => by have := h2 H; have := H _ _ ha hx; omega⟩

theorem TiledVerts.count {vs : Nat} {m : Mesh F} (h : TiledVerts vs m) :
    ∃ n : Nat, m.vertices.length = n * vs ∧ (n : Int) = (m.mats.map Mat.vnum).sum := by
  have := sum_nonneg h.nonneg
  obtain ⟨n, hn⟩ := Int.eq_ofNat_of_zero_le this
  refine ⟨n, ?_, hn.symm⟩
  have ht := h.total
  rw [hn] at ht
  exact_mod_cast ht

/-! ## Loops over attributes -/

theorem foldE_append {σ α : Type} (f : σ → α → Except Err σ) (s : σ) (l r : List α) :
    foldE f s (l ++ r) = match foldE f s l with
      | .error e => .error e
      | .ok s' => foldE f s' r := by
  induction l generalizing s with
  | nil => rfl
  | cons a as ih =>
    rw [List.cons_append, foldE, foldE]
    cases f s a with
    | error e => rfl
    | ok s' => exact ih s'

/-- A property kept by each step. -/
theorem foldE_inv {σ α : Type} {f : σ → α → Except Err σ} (I : σ → Prop) {l : List α}
    (hf : ∀ s s' a, a ∈ l → I s → f s a = .ok s' → I s') {s s' : σ} (hs : I s)
    (h : foldE f s l = .ok s') : I s' := by
  induction l generalizing s with
  | nil => cases h; exact hs
  | cons a as ih =>
    rw [foldE] at h
    split at h
    · cases h
    · rename_i t ht
      exact ih (fun s s' b hb => hf s s' b (by simp [hb])) (hf _ _ a (by simp) hs ht) h

theorem foldE_ok {σ α : Type} {f : σ → α → Except Err σ} (I : σ → Prop) {l : List α}
    (hf : ∀ s a, a ∈ l → I s → ∃ s', f s a = .ok s' ∧ I s') {s : σ} (hs : I s) :
    ∃ s', foldE f s l = .ok s' ∧ I s' := by
  induction l generalizing s with
  | nil => exact ⟨s, rfl, hs⟩
  | cons a as ih =>
    obtain ⟨t, ht, hi⟩ := hf s a (by simp) hs
    obtain ⟨u, hu, hi'⟩ := ih (fun s b hb => hf s b (by simp [hb])) hi
    exact ⟨u, by rw [foldE, ht]; exact hu, hi'⟩

/-! ## Setting three components -/

theorem clamp_bounds (n : Nat) (i : Int) : clamp n i ≤ n := by
  unfold clamp; split <;> omega

theorem pySlice_length {α : Type} (l : List α) (a b : Int) :
    (pySlice l a b).length = clamp l.length b - clamp l.length a := by
  have h1 := clamp_bounds l.length a
  have h2 := clamp_bounds l.length b
  simp [pySlice]; omega

theorem pySliceSet_length {α : Type} (l new : List α) (a b : Int) :
    (pySliceSet l a b new).length =
      clamp l.length a + new.length + (l.length - max (clamp l.length a) (clamp l.length b)) := by
  have h1 := clamp_bounds l.length a
  simp [pySliceSet]; omega

theorem attrPos_startsAt {vf : Int} {a : VAttr} {o : Nat} (h : StartsAt vf a o) :
    attrPos vf a = .ok (o : Int) := by
  rw [attrPos, if_neg h.1, intTrueDiv_exact h.1 h.2.1]
  have := h.2.2
  rw [abs_of_nonneg (by omega)]; omega

theorem startsAt_unique {vf : Int} {a : VAttr} {o p : Nat} (h : StartsAt vf a o)
    (h' : StartsAt vf a p) : o = p := by
  have := h.2.1.symm.trans h'.2.1
  have := Int.eq_of_mul_eq_mul_left h.1 this
  omega

theorem isVector_iff (u : Int) : isVector u = true ↔ (u = 0 ∨ u = 3 ∨ u = 6) := by
  simp [isVector, or_assoc]

theorem toVec3_slice {l : List F} {o : Nat} (h : o + 3 ≤ l.length) :
    ∃ x y z, pySlice l (o : Int) ((o : Int) + (3 : Nat)) = [x, y, z] ∧ l[o]? = some x ∧
      l[o + 1]? = some y ∧ l[o + 2]? = some z := by
  refine ⟨l[o], l[o + 1], l[o + 2], ?_, by simp, by simp, by simp⟩
  rw [← Int.natCast_add, pySlice_nat]
  rw [List.drop_eq_getElem_cons (by omega), List.drop_eq_getElem_cons (by omega),
    List.drop_eq_getElem_cons (by omega), show o + 3 - o = 3 by omega]
  rfl

theorem pySliceSet_three {l : List F} {o : Nat} (h : o + 3 ≤ l.length) (x y z : F) (c : Nat) :
    (pySliceSet l (o : Int) ((o : Int) + (3 : Nat)) [x, y, z])[c]? =
      if c = o then some x else if c = o + 1 then some y else if c = o + 2 then some z
      else l[c]? := by
  unfold pySliceSet
  rw [← Int.natCast_add, clamp_nat, clamp_nat, Nat.min_eq_left (by omega),
    Nat.min_eq_left (by omega), Nat.max_eq_right (by omega), List.append_assoc]
  rcases Nat.lt_or_ge c o with hc | hc
  · rw [if_neg (by omega), if_neg (by omega), if_neg (by omega),
      List.getElem?_append_left (by simp; omega), List.getElem?_take, if_pos hc]
  · rw [List.getElem?_append_right (by simp; omega)]
    simp only [List.length_take, Nat.min_eq_left (show o ≤ l.length by omega)]
    by_cases h0 : c = o
    · subst h0; simp
    · by_cases h1 : c = o + 1
      · subst h1; simp
      · by_cases h2 : c = o + 2
        · subst h2; simp
        · rw [if_neg h0, if_neg h1, if_neg h2, List.getElem?_append_right (by simp; omega)]
          simp only [List.length_cons, List.length_nil, List.getElem?_drop]
          congr 1; omega

variable [FArith F] [Libm F]

/-- The map `rotate` applies to a vector, for given cosines and sines. -/
def rotMap (cy sy cp sp cr sr : F) (v : Vec3 F) : Vec3 F :=
  rotYaw (rotPitch (rotRoll v cr sr) cp sp) cy sy

/-- All six values exist. -/
structure Trig (r : Angles F) (cy sy cp sp cr sr : F) : Prop where
  yaw : Libm.cos r.yaw = some cy ∧ Libm.sin r.yaw = some sy
  pitch : Libm.cos r.pitch = some cp ∧ Libm.sin r.pitch = some sp
  roll : Libm.cos r.roll = some cr ∧ Libm.sin r.roll = some sr

theorem rotData_eq {r : Angles F} {cy sy cp sp cr sr : F} (h : Trig r cy sy cp sp cr sr)
    (x y z : F) (l : List F) :
    rotData r (x :: y :: z :: l) = .ok (rotMap cy sy cp sp cr sr ⟨x, y, z⟩) := by
  unfold rotData toVec3 trig
  simp only [h.yaw.1, h.yaw.2, h.pitch.1, h.pitch.2, h.roll.1, h.roll.2]
  rfl

theorem rotData_ok {r : Angles F} {l : List F} {v : Vec3 F} (h : rotData r l = .ok v) :
    3 ≤ l.length ∧ ∃ cy sy cp sp cr sr, Trig r cy sy cp sp cr sr := by
  unfold rotData at h
  split at h
  · cases h
  · rename_i w hw
    constructor
    · unfold toVec3 at hw
      split at hw
      · simp
      · cases hw
    · unfold trig at h
      split at h
      · cases h
      · rename_i cr sr hr
        split at h
        · cases h
        · rename_i cp sp hp
          split at h
          · cases h
          · rename_i cy sy hy
            split at hr <;> cases hr
            split at hp <;> cases hp
            split at hy <;> cases hy
            exact ⟨cy, sy, cp, sp, cr, sr, ⟨by assumption, by assumption⟩,
              ⟨by assumption, by assumption⟩, ⟨by assumption, by assumption⟩⟩

/-- What one attribute does to a vertex. -/
theorem rotateAttr_eq {vf : Int} {r : Angles F} {v : List F} {a : VAttr} {o : Nat}
    {cy sy cp sp cr sr : F} (ht : Trig r cy sy cp sp cr sr) (ha : VectorAttr a)
    (hty : a.vartype = 2) (ho : StartsAt vf a o) (hl : o + 3 ≤ v.length) :
    ∃ w x y z, rotateAttr vf r v a = .ok w ∧ w.length = v.length ∧
      v[o]? = some x ∧ v[o + 1]? = some y ∧ v[o + 2]? = some z ∧
      ∀ c, w[c]? = if c = o then some (rotMap cy sy cp sp cr sr ⟨x, y, z⟩).x
        else if c = o + 1 then some (rotMap cy sy cp sp cr sr ⟨x, y, z⟩).y
        else if c = o + 2 then some (rotMap cy sy cp sp cr sr ⟨x, y, z⟩).z else v[c]? := by
  obtain ⟨x, y, z, hs, h0, h1, h2⟩ := toVec3_slice hl
  refine ⟨_, x, y, z, ?_, ?_, h0, h1, h2, pySliceSet_three hl _ _ _⟩
  · rw [rotateAttr, if_neg ha.1, if_pos ((isVector_iff _).2 ha.2), attrPos_startsAt ho]
    simp only
    rw [hty, show declLen 2 = .ok 3 from rfl]
    simp only
    rw [hs, rotData_eq ht]
    rfl
  · rw [pySliceSet_length, ← Int.natCast_add, clamp_nat, clamp_nat]
    simp; omega

theorem rotateAttr_skip {vf : Int} {r : Angles F} {v : List F} {a : VAttr} (ha : ¬ VectorAttr a) :
    rotateAttr vf r v a = .ok v := by
  rw [rotateAttr]
  split
  · rfl
  · rw [if_neg]
    rw [isVector_iff]
    intro h
    exact ha ⟨by assumption, h⟩

/-- The attributes of one vertex: the length stays, components no vector attribute covers stay, and
with vector attributes apart each of them is mapped by `rotMap`. -/
theorem rotateAttrs_eq {vf : Int} {r : Angles F} {vs : Nat} {cy sy cp sp cr sr : F}
    (ht : Trig r cy sy cp sp cr sr) (attrs : List VAttr)
    (h3 : ∀ a ∈ attrs, VectorAttr a → a.vartype = 2 ∧ ∃ o, StartsAt vf a o ∧ o + 3 ≤ vs)
    (v : List F) (hl : v.length = vs) :
    ∃ w, foldE (rotateAttr vf r) v attrs = .ok w ∧ w.length = vs ∧
      (∀ c, (∀ a ∈ attrs, VectorAttr a → ∀ o, StartsAt vf a o → c < o ∨ o + 3 ≤ c) →
        w[c]? = v[c]?) ∧
      (attrs.Pairwise (Apart vf) → ∀ a ∈ attrs, VectorAttr a → ∀ o, StartsAt vf a o →
        vec3At w o = (vec3At v o).map (rotMap cy sy cp sp cr sr)) := by
  induction attrs generalizing v with
  | nil => exact ⟨v, rfl, hl, fun _ _ => rfl, fun _ a ha => by cases ha⟩
  | cons a as ih =>
    have h3' : ∀ b ∈ as, VectorAttr b → b.vartype = 2 ∧ ∃ o, StartsAt vf b o ∧ o + 3 ≤ vs :=
      fun b hb => h3 b (by simp [hb])
    by_cases hv : VectorAttr a
    · obtain ⟨hty, o, ho, hov⟩ := h3 a (by simp) hv
      obtain ⟨u, x, y, z, hu, hul, hx, hy, hz, huc⟩ := rotateAttr_eq ht hv hty ho (hl ▸ hov)
      obtain ⟨w, hw, hwl, hwc, hwv⟩ := ih h3' u (hul.trans hl)
      refine ⟨w, by rw [foldE, hu]; exact hw, hwl, ?_, ?_⟩
      · intro c hc
        rw [hwc c fun b hb => hc b (by simp [hb]), huc c]
        have := hc a (by simp) hv o ho
        rw [if_neg (by omega), if_neg (by omega), if_neg (by omega)]
      · intro hap b hb hbv p hp
        have hap' := List.pairwise_cons.1 hap
        rcases List.mem_cons.1 hb with rfl | hb
        · obtain rfl := startsAt_unique ho hp
          have hk : ∀ c, o ≤ c → c < o + 3 → w[c]? = u[c]? := by
            intro c h1 h2
            apply hwc
            intro d hd hdv q hq
            have := hap'.1 d hd hv hdv o q ho hq
            omega
          unfold vec3At
          rw [hk o (by omega) (by omega), hk (o + 1) (by omega) (by omega),
            hk (o + 2) (by omega) (by omega), huc, huc, huc, hx, hy, hz]
          simp
        · rw [hwv hap'.2 b hb hbv p hp]
          have := hap'.1 b hb hv hbv o p ho hp
          unfold vec3At
          rw [huc p, huc (p + 1), huc (p + 2), if_neg (by omega), if_neg (by omega),
            if_neg (by omega), if_neg (by omega), if_neg (by omega), if_neg (by omega),
            if_neg (by omega), if_neg (by omega), if_neg (by omega)]
    · obtain ⟨w, hw, hwl, hwc, hwv⟩ := ih h3' v hl
      refine ⟨w, by rw [foldE, rotateAttr_skip hv]; exact hw, hwl, ?_, ?_⟩
      · intro c hc
        exact hwc c fun b hb => hc b (by simp [hb])
      · intro hap b hb hbv p hp
        rcases List.mem_cons.1 hb with rfl | hb
        · exact absurd hbv hv
        · exact hwv (List.pairwise_cons.1 hap).2 b hb hbv p hp

omit [FArith F] [Libm F] in
theorem setVertices_err {m : Mesh F} {x : Except Err (List F)} (h : (setVertices m x).2 ≠ none) :
    (setVertices m x).1 = m := by
  cases x with
  | error e => rfl
  | ok l => exact absurd rfl h

/-- `rotate` succeeds on a tiled mesh with `FLOAT3` vectors when all sines and cosines exist. -/
theorem rotate_tiled {vs : Nat} {m : Mesh F} (ht : TiledVerts vs m) (h3 : Float3Vectors vs m)
    {y p r : F} {rest : List F} {cy sy cp sp cr sr : F}
    (htr : Trig ⟨Libm.radians y, Libm.radians p, Libm.radians r⟩ cy sy cp sp cr sr) :
    ∃ l, rotate m (y :: p :: r :: rest) = ({ m with vertices := l }, none) ∧
      l.length = m.vertices.length ∧
      (∀ v c, c < vs → (∀ a ∈ m.vattrs, VectorAttr a → ∀ o, StartsAt m.vertformat a o →
        c < o ∨ o + 3 ≤ c) → l[v * vs + c]? = m.vertices[v * vs + c]?) ∧
      (m.vattrs.Pairwise (Apart m.vertformat) → ∀ a ∈ m.vattrs, VectorAttr a →
        ∀ o, StartsAt m.vertformat a o → ∀ v, vec3At l (v * vs + o) =
          (vec3At m.vertices (v * vs + o)).map (rotMap cy sy cp sp cr sr)) := by
  obtain ⟨n, hn, _⟩ := ht.count
  have hok : ∀ v : List F, v.length = vs → _ := fun v hl => rotateAttrs_eq htr m.vattrs h3 v hl
  let g : List F → List F := fun v => match rotateVertex m ⟨Libm.radians y, Libm.radians p,
    Libm.radians r⟩ v with | .ok w => w | .error _ => []
  have hE : flatMapE (rotateVertex m ⟨Libm.radians y, Libm.radians p, Libm.radians r⟩)
      (chunks vs m.vertices) = .ok ((chunks vs m.vertices).flatMap g) := by
    apply flatMapE_ok
    intro c hc
    obtain ⟨w, hw, _⟩ := hok c (chunks_length _ _ hc n hn)
    have hg : g c = w := by
      change (match rotateVertex m _ c with | .ok w => w | .error _ => []) = w
      rw [rotateVertex, hw]
    rw [hg]; exact hw
  have hrel := flatMapE_chunks_rel ht.pos _ (fun v w =>
      (∀ c, (∀ a ∈ m.vattrs, VectorAttr a → ∀ o, StartsAt m.vertformat a o → c < o ∨ o + 3 ≤ c) →
        w[c]? = v[c]?) ∧
      (m.vattrs.Pairwise (Apart m.vertformat) → ∀ a ∈ m.vattrs, VectorAttr a →
        ∀ o, StartsAt m.vertformat a o →
        vec3At w o = (vec3At v o).map (rotMap cy sy cp sp cr sr)))
    (by
      intro v v' hv hv'
      obtain ⟨w, hw, h1, h2, h4⟩ := hok v hv
      rw [rotateVertex, hw] at hv'
      cases hv'
      exact ⟨h1, h2, h4⟩) n _ _ hn hE
  refine ⟨_, ?_, hrel.1.trans hn.symm, ?_, ?_⟩
  · rw [rotate, editVertices_tiled ht, hE]; rfl
  · intro v c hc hcov
    rcases Nat.lt_or_ge v n with hvn | hvn
    · have := (hrel.2 v hvn).1 c hcov
      rwa [vertexAt_getElem? hc, vertexAt_getElem? hc] at this
    · have : n * vs ≤ v * vs := Nat.mul_le_mul_right _ hvn
      rw [List.getElem?_eq_none (by omega), List.getElem?_eq_none (by omega)]
  · intro hap a ha hav o ho v
    obtain ⟨_, o', ho', hov⟩ := h3 a ha hav
    obtain rfl := startsAt_unique ho ho'
    rcases Nat.lt_or_ge v n with hvn | hvn
    · have := (hrel.2 v hvn).2 hap a ha hav o ho
      unfold vec3At at this ⊢
      rwa [vertexAt_getElem? (by omega), vertexAt_getElem? (by omega),
        vertexAt_getElem? (by omega), vertexAt_getElem? (by omega), vertexAt_getElem? (by omega),
        vertexAt_getElem? (by omega)] at this
    · have : n * vs ≤ v * vs := Nat.mul_le_mul_right _ hvn
      unfold vec3At
      rw [List.getElem?_eq_none (by omega), List.getElem?_eq_none (l := m.vertices) (by omega)]
      rfl

/-- The frame of one vertex, for whatever angles the rotation succeeded with. -/
theorem rotateVertex_frame {vs : Nat} {m : Mesh F} (h3 : Float3Vectors vs m) {r : Angles F}
    {v w : List F} (hl : v.length = vs) (h : rotateVertex m r v = .ok w) :
    w.length = vs ∧ ∀ c, (∀ a ∈ m.vattrs, VectorAttr a → ∀ o, StartsAt m.vertformat a o →
      c < o ∨ o + 3 ≤ c) → w[c]? = v[c]? := by
  refine foldE_inv (fun u : List F => u.length = vs ∧ ∀ c, (∀ a ∈ m.vattrs, VectorAttr a →
    ∀ o, StartsAt m.vertformat a o → c < o ∨ o + 3 ≤ c) → u[c]? = v[c]?) ?_ ⟨hl, fun _ _ => rfl⟩ h
  rintro s s' a ha ⟨hsl, hsc⟩ hs'
  by_cases hv : VectorAttr a
  · obtain ⟨hty, o, ho, hov⟩ := h3 a ha hv
    have htrig : ∃ cy sy cp sp cr sr, Trig r cy sy cp sp cr sr := by
      rw [rotateAttr, if_neg hv.1, if_pos ((isVector_iff _).2 hv.2), attrPos_startsAt ho] at hs'
      simp only at hs'
      rw [hty, show declLen 2 = .ok 3 from rfl] at hs'
      simp only at hs'
      split at hs'
      · cases hs'
      · exact (rotData_ok (by assumption)).2
    obtain ⟨cy, sy, cp, sp, cr, sr, ht⟩ := htrig
    obtain ⟨u, x, y, z, hu, hul, _, _, _, huc⟩ := rotateAttr_eq ht hv hty ho (hsl ▸ hov)
    rw [hu] at hs'
    cases hs'
    refine ⟨hul.trans hsl, ?_⟩
    intro c hc
    have := hc a ha hv o ho
    rw [huc, if_neg (by omega), if_neg (by omega), if_neg (by omega)]
    exact hsc c hc
  · rw [rotateAttr_skip hv] at hs'
    cases hs'
    exact ⟨hsl, hsc⟩

theorem rotate_ok {m m' : Mesh F} {rotation : List F} (h : rotate m rotation = (m', none)) :
    ∃ y p r rest l, rotation = y :: p :: r :: rest ∧ m' = { m with vertices := l } ∧
      editVertices (rotateVertex m ⟨Libm.radians y, Libm.radians p, Libm.radians r⟩) m = .ok l := by
  unfold rotate at h
  split at h
  · rename_i y p r rest
    simp only at h
    unfold setVertices at h
    split at h
    · simp at h
    · rename_i l hl
      exact ⟨y, p, r, rest, l, rfl, (Prod.mk.inj h).1.symm, hl⟩
  · simp at h

/-! ## Lengths -/

/-- Whatever the types, an attribute never makes a vertex longer, and a `FLOAT4` vector inside the
vertex makes it one shorter. -/
theorem rotateAttr_length {vf : Int} {r : Angles F} {v w : List F} {a : VAttr}
    (h : rotateAttr vf r v a = .ok w) :
    w.length ≤ v.length ∧
    (VectorAttr a → a.vartype = 3 → ∀ o, StartsAt vf a o → o + 4 ≤ v.length →
      w.length + 1 = v.length) ∧
    (a.vartype ≠ 3 → w.length = v.length) := by
  by_cases hv : VectorAttr a
  · rw [rotateAttr, if_neg hv.1, if_pos ((isVector_iff _).2 hv.2)] at h
    split at h
    · cases h
    · rename_i o ho
      split at h
      · cases h
      · rename_i n hn
        split at h
        · cases h
        · rename_i x hx
          cases h
          have h3 := (rotData_ok hx).1
          rw [pySlice_length] at h3
          have hb := clamp_bounds v.length (o + n)
          have hlen : (pySliceSet v o (o + n) x.toList).length =
              v.length - (clamp v.length (o + n) - clamp v.length o) + 3 := by
            rw [pySliceSet_length]
            simp only [Vec3.toList, List.length_cons, List.length_nil]
            omega
          rw [hlen]
          refine ⟨by omega, ?_, ?_⟩
          · intro _ hty o' ho' hfit
            rw [attrPos_startsAt ho'] at ho
            cases ho
            rw [hty] at hn
            cases hn
            rw [← Int.natCast_add, clamp_nat, clamp_nat]
            omega
          · intro hty
            have hn3 : n ≤ 3 := by
              rw [declLen_eq] at hn
              unfold typeFloats at hn
              split at hn
              · rename_i h'
                split at h' <;> cases h' <;> cases hn <;> omega
              · cases hn
            have hdiff : clamp v.length (o + n) - clamp v.length o ≤ n := by
              unfold clamp
              split <;> split <;> omega
            omega
  · rw [rotateAttr_skip hv] at h
    cases h
    exact ⟨Nat.le_refl _, fun h => absurd h hv, fun _ => rfl⟩

theorem rotateAttrs_length {vf : Int} {r : Angles F} {attrs : List VAttr} {v w : List F}
    (h : foldE (rotateAttr vf r) v attrs = .ok w) : w.length ≤ v.length :=
  foldE_inv (fun u => u.length ≤ v.length)
    (fun _ _ _ _ hs hs' => Nat.le_trans (rotateAttr_length hs').1 hs) (Nat.le_refl _) h

/-- A vertex with a `FLOAT4` vector gets shorter. -/
theorem rotateAttrs_shrink {vf : Int} {r : Angles F} {attrs : List VAttr} {v w : List F}
    {a : VAttr} {o : Nat} (ha : a ∈ attrs) (hv : VectorAttr a) (hty : a.vartype = 3)
    (ho : StartsAt vf a o) (hfit : o + 4 ≤ v.length)
    (h : foldE (rotateAttr vf r) v attrs = .ok w) : w.length + 1 ≤ v.length := by
  obtain ⟨pre, post, rfl⟩ := List.append_of_mem ha
  rw [foldE_append] at h
  split at h
  · cases h
  · rename_i s hs
    rw [foldE] at h
    split at h
    · cases h
    · rename_i t ht
      have h1 := rotateAttrs_length hs
      have h2 := rotateAttr_length ht
      have h3 := rotateAttrs_length h
      rcases Nat.eq_or_lt_of_le h1 with he | hlt
      · have := h2.2.1 hv hty o ho (by omega)
        omega
      · omega

/-- With no other `FLOAT4` vector it loses exactly one float. -/
theorem rotateAttrs_shrink_one {vf : Int} {r : Angles F} {pre post : List VAttr} {v w : List F}
    {a : VAttr} {o : Nat} (hv : VectorAttr a) (hty : a.vartype = 3)
    (ho : StartsAt vf a o) (hfit : o + 4 ≤ v.length)
    (hpre : ∀ b ∈ pre, VectorAttr b → b.vartype ≠ 3)
    (hpost : ∀ b ∈ post, VectorAttr b → b.vartype ≠ 3)
    (h : foldE (rotateAttr vf r) v (pre ++ a :: post) = .ok w) : w.length + 1 = v.length := by
  have keep : ∀ (l : List VAttr) (s t : List F), (∀ b ∈ l, VectorAttr b → b.vartype ≠ 3) →
      foldE (rotateAttr vf r) s l = .ok t → t.length = s.length := by
    intro l s t hl hst
    refine foldE_inv (fun u => u.length = s.length) ?_ rfl hst
    intro x y b hb hx hy
    by_cases hbv : VectorAttr b
    · exact ((rotateAttr_length hy).2.2 (hl b hb hbv)).trans hx
    · rw [rotateAttr_skip hbv] at hy; cases hy; exact hx
  rw [foldE_append] at h
  split at h
  · cases h
  · rename_i s hs
    rw [foldE] at h
    split at h
    · cases h
    · rename_i t ht
      have h1 := keep _ _ _ hpre hs
      have h3 := keep _ _ _ hpost h
      have := (rotateAttr_length ht).2.1 hv hty o ho (by omega)
      omega

end Bf2
