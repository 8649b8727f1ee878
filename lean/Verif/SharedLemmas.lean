import Verif.SharedSpec
import Verif.ReorderLemmas
import Verif.BoundsLemmas

/-! # Lemmas about meshes that hold references to geom objects -/

namespace Bf2

variable {F : Type}

/-- The values of the referenced objects. -/
def lookAt {α : Type} (os : List α) (js : List Nat) : List α := js.filterMap fun j => os[j]?

theorem lookAt_cons {α : Type} {os : List α} {j : Nat} {a : α} (h : os[j]? = some a) (js : List Nat) :
    lookAt os (j :: js) = a :: lookAt os js := by
  unfold lookAt; rw [List.filterMap_cons, h]

theorem lookAt_congr {α : Type} {os os' : List α} {js : List Nat} (h : ∀ j ∈ js, os'[j]? = os[j]?) :
    lookAt os' js = lookAt os js := by
  unfold lookAt
  exact List.filterMap_congr h

theorem lookAt_get {α : Type} {os : List α} {js : List Nat} (h : ∀ j ∈ js, j < os.length) (i : Nat) :
    (lookAt os js)[i]? = (js[i]?).bind fun j => os[j]? := by
  induction js generalizing i with
  | nil => simp [lookAt]
  | cons j js ih =>
    have hj := h j (by simp)
    rw [lookAt_cons (List.getElem?_eq_getElem hj)]
    cases i with
    | zero => simp [hj]
    | succ i =>
      simp only [List.getElem?_cons_succ]
      exact ih (fun k hk => h k (by simp [hk])) i

theorem lookAt_length {α : Type} {os : List α} {js : List Nat} (h : ∀ j ∈ js, j < os.length) :
    (lookAt os js).length = js.length := by
  induction js with
  | nil => rfl
  | cons j js ih =>
    have hj := h j (by simp)
    rw [lookAt_cons (List.getElem?_eq_getElem hj), List.length_cons, List.length_cons,
      ih fun k hk => h k (by simp [hk])]

theorem lookAt_set {α : Type} {os : List α} {js : List Nat} (h : ∀ j ∈ js, j < os.length)
    (hu : ∀ (i k j : Nat), js[i]? = some j → js[k]? = some j → i = k) {i j : Nat}
    (hi : js[i]? = some j) (a : α) : lookAt (os.set j a) js = (lookAt os js).set i a := by
  have hj : j < os.length := h j (List.mem_of_getElem? hi)
  apply List.ext_getElem?
  intro k
  rw [lookAt_get (by simpa using h), List.getElem?_set, lookAt_length h]
  rcases hk : js[k]? with _ | l
  · have : i ≠ k := by rintro rfl; rw [hi] at hk; cases hk
    rw [if_neg this, lookAt_get h, hk]
    rfl
  · simp only [Option.bind_some, List.getElem?_set]
    by_cases hik : i = k
    · subst hik
      rw [hi] at hk
      cases hk
      rw [if_pos rfl, if_pos hj, if_pos rfl, if_pos (List.getElem?_eq_some_iff.1 hi).1]
    · have : j ≠ l := fun hjl => hik (hu i k j hi (hjl ▸ hk))
      rw [if_neg this, if_neg hik, lookAt_get h, hk]
      rfl

theorem look_geoms (s : Shared F) : s.look.geoms = lookAt s.mesh.geoms s.slots := rfl

theorem unshared_nodup {js : List Nat} (h : ∀ (i k j : Nat), js[i]? = some j → js[k]? = some j → i = k) :
    js.Nodup := by
  rw [List.nodup_iff_getElem?_ne_getElem?]
  intro i k hik hk heq
  have h1 : js[k]? = some js[k] := List.getElem?_eq_getElem hk
  exact absurd (h i k _ (heq.trans h1) h1) (by omega)

/-! ## Loops without sharing -/

theorem travAt_length {σ α : Type} (f : σ → α → σ × α × Option Err) (s : σ) (os : List α)
    (js : List Nat) : (travAt f s os js).2.1.length = os.length := by
  induction js generalizing s os with
  | nil => rfl
  | cons j js ih =>
    rw [travAt]
    rcases os[j]? with _ | a
    · rfl
    · simp only
      rcases f s a with ⟨s', a', _ | e⟩
      · simp only; rw [ih]; simp
      · simp

theorem travAt2_length {σ α β : Type} (f : σ → α → β → σ × α × Option Err) (s : σ) (os : List α)
    (js : List Nat) (bs : List β) : (travAt2 f s os js bs).2.1.length = os.length := by
  induction js generalizing s os bs with
  | nil => rfl
  | cons j js ih =>
    cases bs with
    | nil => rfl
    | cons b bs =>
      rw [travAt2]
      rcases os[j]? with _ | a
      · rfl
      · simp only
        rcases f s a b with ⟨s', a', _ | e⟩
        · simp only; rw [ih]; simp
        · simp

/-- Without sharing the loop over references is the loop over the values. -/
theorem travAt_eq {σ α : Type} (f : σ → α → σ × α × Option Err) (js : List Nat) :
    ∀ (s : σ) (os : List α), (∀ j ∈ js, j < os.length) → js.Nodup →
      trav f s (lookAt os js) =
        ((travAt f s os js).1, lookAt (travAt f s os js).2.1 js, (travAt f s os js).2.2) ∧
      ∀ k, k ∉ js → (travAt f s os js).2.1[k]? = os[k]? := by
  induction js with
  | nil => intro s os _ _; exact ⟨rfl, fun _ _ => rfl⟩
  | cons j js ih =>
    intro s os hv hn
    have hj := hv j (by simp)
    have ha := List.getElem?_eq_getElem hj
    obtain ⟨hnj, hn'⟩ := List.nodup_cons.1 hn
    rw [lookAt_cons ha, trav, travAt, ha]
    simp only
    have hset : ∀ (x : α) (k : Nat), k ≠ j → (os.set j x)[k]? = os[k]? := fun x k hk => by
      rw [List.getElem?_set, if_neg (Ne.symm hk)]
    rcases hf : f s os[j] with ⟨s', a', _ | e⟩
    · simp only
      have hv' : ∀ k ∈ js, k < (os.set j a').length := fun k hk => by
        rw [List.length_set]; exact hv k (by simp [hk])
      obtain ⟨h1, h2⟩ := ih s' (os.set j a') hv' hn'
      rw [lookAt_congr (os := os) (os' := os.set j a') fun k hk => hset a' k (by rintro rfl; exact hnj hk)] at h1
      rw [h1]
      have hjs : (travAt f s' (os.set j a') js).2.1[j]? = some a' := by
        rw [h2 j hnj, List.getElem?_set, if_pos rfl, if_pos hj]
      refine ⟨by rw [lookAt_cons hjs], fun k hk => ?_⟩
      rw [List.mem_cons, not_or] at hk
      rw [h2 k hk.2, hset a' k hk.1]
    · simp only
      have hjs : (os.set j a')[j]? = some a' := by rw [List.getElem?_set, if_pos rfl, if_pos hj]
      refine ⟨?_, fun k hk => ?_⟩
      · rw [lookAt_cons hjs,
          lookAt_congr (os := os) (os' := os.set j a') fun k hk => hset a' k (by rintro rfl; exact hnj hk)]
      · rw [List.mem_cons, not_or] at hk
        exact hset a' k hk.1

theorem travAt2_eq {σ α β : Type} (f : σ → α → β → σ × α × Option Err) (js : List Nat) :
    ∀ (s : σ) (os : List α) (bs : List β), (∀ j ∈ js, j < os.length) → js.Nodup →
      trav2 f s (lookAt os js) bs =
        ((travAt2 f s os js bs).1, lookAt (travAt2 f s os js bs).2.1 js, (travAt2 f s os js bs).2.2) ∧
      ∀ k, k ∉ js → (travAt2 f s os js bs).2.1[k]? = os[k]? := by
  induction js with
  | nil => intro s os bs _ _; exact ⟨rfl, fun _ _ => rfl⟩
  | cons j js ih =>
    intro s os bs hv hn
    have hj := hv j (by simp)
    have ha := List.getElem?_eq_getElem hj
    obtain ⟨hnj, hn'⟩ := List.nodup_cons.1 hn
    cases bs with
    | nil =>
      refine ⟨?_, fun _ _ => rfl⟩
      rw [travAt2, lookAt_cons ha, trav2]
    | cons b bs =>
    rw [lookAt_cons ha, trav2, travAt2, ha]
    simp only
    have hset : ∀ (x : α) (k : Nat), k ≠ j → (os.set j x)[k]? = os[k]? := fun x k hk => by
      rw [List.getElem?_set, if_neg (Ne.symm hk)]
    rcases hf : f s os[j] b with ⟨s', a', _ | e⟩
    · simp only
      have hv' : ∀ k ∈ js, k < (os.set j a').length := fun k hk => by
        rw [List.length_set]; exact hv k (by simp [hk])
      obtain ⟨h1, h2⟩ := ih s' (os.set j a') bs hv' hn'
      rw [lookAt_congr (os := os) (os' := os.set j a') fun k hk => hset a' k (by rintro rfl; exact hnj hk)] at h1
      rw [h1]
      have hjs : (travAt2 f s' (os.set j a') js bs).2.1[j]? = some a' := by
        rw [h2 j hnj, List.getElem?_set, if_pos rfl, if_pos hj]
      refine ⟨by rw [lookAt_cons hjs], fun k hk => ?_⟩
      rw [List.mem_cons, not_or] at hk
      rw [h2 k hk.2, hset a' k hk.1]
    · simp only
      have hjs : (os.set j a')[j]? = some a' := by rw [List.getElem?_set, if_pos rfl, if_pos hj]
      refine ⟨?_, fun k hk => ?_⟩
      · rw [lookAt_cons hjs,
          lookAt_congr (os := os) (os' := os.set j a') fun k hk => hset a' k (by rintro rfl; exact hnj hk)]
      · rw [List.mem_cons, not_or] at hk
        exact hset a' k hk.1

/-! ## Loops with sharing whose body changes nothing when repeated -/

/-- A loop whose body gives the same when repeated: the exception is that of the loop over the values,
and if there is none also the objects. -/
theorem travAt_idem {α : Type} {f : Unit → α → Unit × α × Option Err}
    (hidem : ∀ a, f () (f () a).2.1 = f () a) (js : List Nat) :
    ∀ (os os0 : List α), (∀ j ∈ js, j < os0.length) → os.length = os0.length →
      (∀ (j : Nat) (a a0 : α), os[j]? = some a → os0[j]? = some a0 → f () a = f () a0) →
      (travAt f () os js).2.2 = (trav f () (lookAt os0 js)).2.2 ∧
      ((travAt f () os js).2.2 = none →
        (∀ (j : Nat) (a0 : α), os0[j]? = some a0 → j ∈ js →
          (travAt f () os js).2.1[j]? = some (f () a0).2.1) ∧
        (∀ j, j ∉ js → (travAt f () os js).2.1[j]? = os[j]?) ∧
        (trav f () (lookAt os0 js)).2.1 = (lookAt os0 js).map fun a => (f () a).2.1) := by
  induction js with
  | nil =>
    intro os os0 _ _ _
    exact ⟨rfl, fun _ => ⟨fun _ _ _ h => by simp at h, fun _ _ => rfl, rfl⟩⟩
  | cons j js ih =>
    intro os os0 hv hlen hsame
    have hj0 := hv j (by simp)
    have hj : j < os.length := by omega
    have ha := List.getElem?_eq_getElem hj
    have ha0 := List.getElem?_eq_getElem hj0
    have hfa : f () os[j] = f () os0[j] := hsame j _ _ ha ha0
    rw [lookAt_cons ha0, trav, travAt, ha]
    simp only
    rw [hfa]
    rcases hf : f () os0[j] with ⟨⟨⟩, a', _ | e⟩
    · simp only
      have hsame' : ∀ (k : Nat) (a a0 : α), (os.set j a')[k]? = some a → os0[k]? = some a0 →
          f () a = f () a0 := by
        intro k a a0 h1 h2
        rw [List.getElem?_set] at h1
        by_cases hk : j = k
        · subst hk
          rw [if_pos rfl, if_pos hj] at h1
          cases h1
          rw [ha0] at h2
          cases h2
          have := hidem os0[j]
          rw [hf] at this
          rw [hf]; exact this
        · rw [if_neg hk] at h1
          exact hsame k a a0 h1 h2
      obtain ⟨h1, h2⟩ := ih (os.set j a') os0 (fun k hk => hv k (by simp [hk])) (by simp [hlen]) hsame'
      refine ⟨h1, fun hnone => ?_⟩
      obtain ⟨h3, h4, h5⟩ := h2 hnone
      refine ⟨fun k a0 hk hmem => ?_, fun k hk => ?_, ?_⟩
      · by_cases hkm : k ∈ js
        · exact h3 k a0 hk hkm
        · have hkj : k = j := by
            rcases List.mem_cons.1 hmem with h | h
            · exact h
            · exact absurd h hkm
          subst hkj
          rw [h4 k hkm, List.getElem?_set, if_pos rfl, if_pos hj]
          rw [ha0] at hk
          cases hk
          rw [hf]
      · rw [List.mem_cons, not_or] at hk
        rw [h4 k hk.2, List.getElem?_set, if_neg (Ne.symm hk.1)]
      · rw [List.map_cons, h5, hf]
    · simp

/-! ## Orders -/

theorem reorderAt_length (vs : Nat) (m : Mesh F) (slots : List Nat) (ids : List Int) :
    ∀ (os : List (Geom F)) (s : Arrays F),
      (reorderAt vs m slots os s ids).geoms.length = os.length := by
  induction ids with
  | nil => intro os s; rfl
  | cons id ids ih =>
    intro os s
    rw [reorderAt]
    rcases pyGet slots id with _ | j
    · rfl
    · simp only
      rcases os[j]? with _ | g
      · rfl
      · simp only
        rcases reorderGeom vs m s g with ⟨s', g', _ | e⟩
        · simp only; rw [ih]; simp
        · simp

theorem reorderAt_order (vs : Nat) (m : Mesh F) (slots : List Nat) (ids : List Int) :
    ∀ (os : List (Geom F)) (s : Arrays F), (reorderAt vs m slots os s ids).err = none →
      List.Forall₂ (fun id j => pyGet slots id = some j) ids (reorderAt vs m slots os s ids).order := by
  induction ids with
  | nil => intro os s _; exact .nil
  | cons id ids ih =>
    intro os s h
    rw [reorderAt] at h ⊢
    rcases hp : pyGet slots id with _ | j
    · rw [hp] at h; simp at h
    · rw [hp] at h
      simp only at h ⊢
      rcases ho : os[j]? with _ | g
      · rw [ho] at h; simp at h
      · rw [ho] at h
        simp only at h ⊢
        rcases hr : reorderGeom vs m s g with ⟨s', g', _ | e⟩
        · rw [hr] at h
          simp only at h ⊢
          exact .cons hp (ih _ _ h)
        · rw [hr] at h; simp at h

theorem pyGet_pos {α : Type} {l : List α} {i : Int} :
    pyGet l i = (pyPos l.length i).bind fun j => l[j]? := by
  unfold pyGet
  rcases pyPos l.length i <;> rfl

/-- Without sharing, reordering references is reordering values. -/
theorem reorderAt_eq {vs : Nat} {m m' : Mesh F} (hv : m'.vertices = m.vertices) (hi : m'.index = m.index)
    {slots : List Nat}
    (hu : ∀ (i k j : Nat), slots[i]? = some j → slots[k]? = some j → i = k) (ids : List Int) :
    ∀ (os : List (Geom F)) (s : Arrays F), (∀ j ∈ slots, j < os.length) →
      let r := reorderAt vs m slots os s ids
      let p := reorderGeoms vs m' (lookAt os slots) s ids
      p.geoms = lookAt r.geoms slots ∧ p.arrays = r.arrays ∧ p.err = r.err ∧
        List.Forall₂ (fun i j => slots[i]? = some j) p.order r.order := by
  have hmat : reorderMat vs m' = reorderMat vs m := by
    funext s a
    unfold reorderMat
    rw [hv, hi]
  have hgeom : reorderGeom vs m' = reorderGeom vs m := by
    rw [reorderGeom_lift, reorderGeom_lift, hmat]
  induction ids with
  | nil => intro os s hval; exact ⟨rfl, rfl, rfl, .nil⟩
  | cons id ids ih =>
    intro os s hval
    simp only
    rw [reorderAt, reorderGeoms, lookAt_length hval, pyGet_pos]
    rcases hp : pyPos slots.length id with _ | i
    · exact ⟨rfl, rfl, rfl, .nil⟩
    · simp only [Option.bind_some]
      have hil : i < slots.length := (names_pyPos hp).1
      have hsi := List.getElem?_eq_getElem hil
      rw [hsi, lookAt_get hval, hsi]
      simp only [Option.bind_some]
      have hjl : slots[i] < os.length := hval _ (List.getElem_mem hil)
      rw [List.getElem?_eq_getElem hjl]
      simp only
      rw [hgeom]
      rcases hr : reorderGeom vs m s os[slots[i]] with ⟨s', g', _ | e⟩
      · simp only
        obtain ⟨h1, h2, h3, h4⟩ := ih (os.set slots[i] g') s' (by simpa using hval)
        rw [lookAt_set hval hu hsi] at h1 h2 h3 h4
        exact ⟨h1, h2, h3, .cons hsi h4⟩
      · simp only
        exact ⟨(lookAt_set hval hu hsi g').symm, by trivial, by trivial, .nil⟩

theorem forall₂_get_right {α β : Type} {R : α → β → Prop} {l : List α} {r : List β}
    (h : List.Forall₂ R l r) {k : Nat} {b : β} (hk : r[k]? = some b) : ∃ a, l[k]? = some a ∧ R a b := by
  induction h generalizing k with
  | nil => simp at hk
  | @cons a c l r hac _ ih =>
    cases k with
    | zero => simp only [List.getElem?_cons_zero, Option.some.injEq] at hk; subst hk; exact ⟨a, rfl, hac⟩
    | succ k => simpa using ih (by simpa using hk)

/-! ## The methods -/

section methods

/-- What is seen after a method, with the outcome. -/
def Shared.seen {ρ : Type} (r : Shared F × ρ) : Mesh F × ρ := (r.1.look, r.2)

theorem look_slots (m : Mesh F) (gs : List (Geom F)) (js : List Nat) :
    (Shared.mk { m with geoms := gs } js).look = { m with geoms := lookAt gs js } := rfl

theorem setVerts_seen (s : Shared F) {r : Except Err (List F)} :
    Shared.seen (s.setVerts (setVertices s.look r)) = setVertices s.look r := by
  cases r <;> rfl

theorem changeOrder_seen {s : Shared F} (hv : s.Valid) (hu : s.Unshared) (order : List Int) :
    Shared.seen (s.changeGeomsOrder order) = changeGeomsOrder s.look order := by
  have hlen : s.look.geoms.length = s.slots.length := lookAt_length hv
  unfold Shared.changeGeomsOrder changeGeomsOrder
  rw [hlen]
  by_cases h : order.length ≠ s.slots.length
  · rw [if_pos h, if_pos h]; rfl
  rw [if_neg h, if_neg h]
  have hva : s.look.vattrs = s.mesh.vattrs := rfl
  rw [hva]
  rcases vertexSize s.mesh.vattrs with e | vs
  · rfl
  simp only
  have key := reorderAt_eq (vs := vs) (m := s.mesh) (m' := s.look) rfl rfl hu order s.mesh.geoms
    ⟨[], []⟩ hv
  simp only at key
  rw [look_geoms]
  have hlr := reorderAt_length vs s.mesh s.slots order s.mesh.geoms ⟨[], []⟩
  rcases hr : reorderAt vs s.mesh s.slots s.mesh.geoms ⟨[], []⟩ order with ⟨os, a, js, e⟩
  rcases hp : reorderGeoms vs s.look (lookAt s.mesh.geoms s.slots) ⟨[], []⟩ order with ⟨gs, b, is, e'⟩
  rw [hr] at key hlr
  rw [hp] at key
  simp only at key hlr
  obtain ⟨rfl, rfl, rfl, h4⟩ := key
  rcases e' with _ | e'
  · simp only
    have hval : ∀ j ∈ s.slots, j < os.length := by rw [hlr]; exact hv
    have : (is.filterMap fun i => (lookAt os s.slots)[i]?) = js.filterMap fun j => os[j]? := by
      clear hr hp
      induction h4 with
      | nil => rfl
      | @cons i j is js hij _ ih =>
        rw [List.filterMap_cons, List.filterMap_cons, lookAt_get hval, hij, ih]
        rfl
    rw [this]
    rfl
  · rfl

theorem mergeFinish_seen (s : Shared F) (os : List (Geom F)) (st : MergeSt F) :
    Shared.seen (s.mergeFinish os st) = mergeFinish s.look (lookAt os s.slots) st := by
  have hx : s.look.index = s.mesh.index := rfl
  unfold Shared.mergeFinish mergeFinish
  rw [hx]
  rcases s.mesh.index with i | ix <;> rfl

theorem merge_seen {s : Shared F} (hv : s.Valid) (hu : s.Unshared) (o : Mesh F) :
    Shared.seen (s.merge o) = merge s.look o := by
  unfold Shared.merge merge
  rcases canMerge s.look o with e | _ | _
  · rfl
  · rfl
  simp only
  have hg : mergeGeom s.look o = mergeGeom s.mesh o := rfl
  rw [hg, look_geoms, (travAt2_eq (mergeGeom s.mesh o) s.slots ⟨[], [], 0, 0, 0, 0⟩ s.mesh.geoms o.geoms hv
    (unshared_nodup hu)).1]
  rcases travAt2 (mergeGeom s.mesh o) ⟨[], [], 0, 0, 0, 0⟩ s.mesh.geoms s.slots o.geoms with
    ⟨st, os, _ | e⟩
  · exact mergeFinish_seen s os st
  · rfl

theorem mergeSelf_seen {s : Shared F} (hv : s.Valid) (hu : s.Unshared) :
    Shared.seen s.mergeSelf = mergeSelf s.look := by
  unfold Shared.mergeSelf mergeSelf
  rcases canMerge s.look s.look with e | _ | _
  · rfl
  · rfl
  simp only
  have hg : mergeGeomSelf s.look = mergeGeomSelf s.mesh := rfl
  rw [hg, look_geoms, (travAt_eq (mergeGeomSelf s.mesh) s.slots ⟨[], [], 0, 0, 0, 0⟩ s.mesh.geoms hv
    (unshared_nodup hu)).1]
  rcases travAt (mergeGeomSelf s.mesh) ⟨[], [], 0, 0, 0, 0⟩ s.mesh.geoms s.slots with ⟨st, os, _ | e⟩
  · exact mergeFinish_seen s os st
  · rfl

variable [FArith F]

theorem translate_seen (s : Shared F) (d : List F) :
    Shared.seen (s.translate d) = translate s.look d := setVerts_seen s

theorem rotate_seen [Libm F] (s : Shared F) (d : List F) :
    Shared.seen (s.rotate d) = rotate s.look d := by
  unfold Shared.rotate rotate
  split
  · exact setVerts_seen s
  · rfl

theorem update_seen {s : Shared F} (hv : s.Valid) (hu : s.Unshared) :
    Shared.seen s.updateBoundaries = updateBoundaries s.look := by
  unfold Shared.updateBoundaries updateBoundaries
  have hg : boundGeom s.look = boundGeom s.mesh := rfl
  rw [hg, look_geoms, (travAt_eq (boundGeom s.mesh) s.slots () s.mesh.geoms hv (unshared_nodup hu)).1]
  rfl

/-- Sharing or not: same exception, and if there is none what is seen is the same. -/
theorem update_seen_any {s : Shared F} (hv : s.Valid) :
    s.updateBoundaries.2 = (updateBoundaries s.look).2 ∧
      (s.updateBoundaries.2 = none → s.updateBoundaries.1.look = (updateBoundaries s.look).1) := by
  have key := travAt_idem (f := boundGeom s.mesh) (boundGeom_idem s.mesh ()) s.slots s.mesh.geoms
    s.mesh.geoms hv rfl (by intro j a b h1 h2; rw [h1] at h2; cases h2; rfl)
  have hg : boundGeom s.look = boundGeom s.mesh := rfl
  have e1 : s.updateBoundaries.2 = (travAt (boundGeom s.mesh) () s.mesh.geoms s.slots).2.2 := rfl
  have e2 : (updateBoundaries s.look).2 =
      (trav (boundGeom s.mesh) () (lookAt s.mesh.geoms s.slots)).2.2 := rfl
  refine ⟨by rw [e1, e2]; exact key.1, fun h => ?_⟩
  obtain ⟨h3, _, h5⟩ := key.2 (e1 ▸ h)
  have e3 : s.updateBoundaries.1.look = { s.mesh with
      geoms := lookAt (travAt (boundGeom s.mesh) () s.mesh.geoms s.slots).2.1 s.slots } := rfl
  have e4 : (updateBoundaries s.look).1 = { s.mesh with
      geoms := (trav (boundGeom s.mesh) () (lookAt s.mesh.geoms s.slots)).2.1 } := rfl
  suffices hl : lookAt (travAt (boundGeom s.mesh) () s.mesh.geoms s.slots).2.1 s.slots =
      (lookAt s.mesh.geoms s.slots).map fun a => (boundGeom s.mesh () a).2.1 by
    rw [e3, e4, h5, hl]
  apply List.ext_getElem?
  intro i
  rw [lookAt_get (by rw [travAt_length]; exact hv), List.getElem?_map, lookAt_get hv]
  rcases hi : s.slots[i]? with _ | j
  · rfl
  · have hm := List.mem_of_getElem? hi
    have hj := hv j hm
    simp only [Option.bind_some]
    rw [h3 j _ (List.getElem?_eq_getElem hj) hm, List.getElem?_eq_getElem hj]
    rfl

omit [FArith F] in
theorem lodAt_seen {s : Shared F} (hv : s.Valid) (p : Nat × Nat) : s.lodAt p = lodAt s.look p := by
  unfold Shared.lodAt lodAt
  rw [look_geoms, lookAt_get hv]
  rcases s.slots[p.1]? <;> rfl

theorem update_valid {s : Shared F} (hv : s.Valid) : s.updateBoundaries.1.Valid := by
  intro j hj
  have : s.updateBoundaries.1.mesh.geoms.length = s.mesh.geoms.length :=
    travAt_length (boundGeom s.mesh) () s.mesh.geoms s.slots
  rw [this]
  exact hv j hj

theorem center_seen {s : Shared F} (hv : s.Valid) (hu : s.Unshared) (g l : Int) (u : Bool) :
    Shared.seen (s.getLodCenterOffset g l u) = getLodCenterOffset s.look g l u := by
  have h := update_seen hv hu
  have hv' := update_valid hv
  unfold Shared.getLodCenterOffset getLodCenterOffset
  rcases lodPos s.look g l with _ | p
  · rfl
  simp only
  cases u with
  | false =>
    simp only [Bool.false_eq_true, if_false]
    rw [lodAt_seen hv]
    rcases lodAt s.look p <;> rfl
  | true =>
    simp only [if_true]
    rw [← h]
    rcases hs : s.updateBoundaries with ⟨s', _ | e⟩
    · rw [hs] at hv'
      simp only [Shared.seen]
      rw [lodAt_seen hv']
      rcases lodAt s'.look p <;> rfl
    · rfl

theorem center_seen_any {s : Shared F} (hv : s.Valid) (g l : Int) (u : Bool) :
    (s.getLodCenterOffset g l u).2 = (getLodCenterOffset s.look g l u).2 ∧
      (∀ p, (s.getLodCenterOffset g l u).2 = .ok p →
        (s.getLodCenterOffset g l u).1.look = (getLodCenterOffset s.look g l u).1) := by
  obtain ⟨h1, h2⟩ := update_seen_any hv
  have hv' := update_valid hv
  unfold Shared.getLodCenterOffset getLodCenterOffset
  rcases lodPos s.look g l with _ | p
  · exact ⟨rfl, fun _ _ => rfl⟩
  simp only
  cases u with
  | false =>
    simp only [Bool.false_eq_true, if_false]
    rw [lodAt_seen hv]
    rcases lodAt s.look p <;> exact ⟨rfl, fun _ _ => rfl⟩
  | true =>
    simp only [if_true]
    rcases hs : s.updateBoundaries with ⟨s', e⟩
    rcases hm : updateBoundaries s.look with ⟨m', e'⟩
    rw [hs] at h1 h2 hv'
    rw [hm] at h1 h2
    simp only at h1 h2 hv'
    subst h1
    rcases e with _ | e
    · simp only
      rw [lodAt_seen hv', h2 rfl]
      rcases lodAt m' p <;> exact ⟨rfl, fun _ _ => h2 rfl⟩
    · exact ⟨rfl, fun q hq => by simp at hq⟩

/-- The references after a call: the same, or after an order those it names. -/
theorem runShared_shape [Libm F] (s : Shared F) (c : EditCall F) :
    (c.runShared s).1.mesh.geoms.length = s.mesh.geoms.length ∧
      ((c.runShared s).1.slots = s.slots ∨ ∃ order, c = .reorder order ∧
        order.length = s.slots.length ∧
        List.Forall₂ (fun id j => pyGet s.slots id = some j) order (c.runShared s).1.slots) := by
  have out : ∀ (r : Shared F × Option Err), (outcome (F := F) r).1 = r.1 := by
    rintro ⟨t, _ | e⟩ <;> rfl
  have outm : ∀ (r : Shared F × Except Err MergeRet), (outcomeMerge (F := F) r).1 = r.1 := by
    rintro ⟨t, e | _ | _⟩ <;> rfl
  have hfin : ∀ (os : List (Geom F)) (st : MergeSt F), (s.mergeFinish os st).1.mesh.geoms = os ∧
      (s.mergeFinish os st).1.slots = s.slots := by
    intro os st
    unfold Shared.mergeFinish mergeFinish
    rcases s.mesh.index <;> exact ⟨rfl, rfl⟩
  have hup : s.updateBoundaries.1.mesh.geoms.length = s.mesh.geoms.length ∧
      s.updateBoundaries.1.slots = s.slots :=
    ⟨travAt_length (boundGeom s.mesh) () s.mesh.geoms s.slots, rfl⟩
  cases c with
  | translate d => rw [EditCall.runShared, out]; exact ⟨rfl, .inl rfl⟩
  | rotate d => rw [EditCall.runShared, out]; exact ⟨rfl, .inl rfl⟩
  | update => rw [EditCall.runShared, out]; exact ⟨hup.1, .inl hup.2⟩
  | center g l u =>
    have outp : ∀ (r : Shared F × Except Err (Vec3 F)), (outcomePoint r).1 = r.1 := by
      rintro ⟨t, e | _⟩ <;> rfl
    rw [EditCall.runShared, outp]
    unfold Shared.getLodCenterOffset
    rcases lodPos s.look g l with _ | p
    · exact ⟨rfl, .inl rfl⟩
    simp only
    cases u with
    | false =>
      simp only [Bool.false_eq_true, if_false]
      rcases s.lodAt p <;> exact ⟨rfl, .inl rfl⟩
    | true =>
      simp only [if_true]
      rcases hs : s.updateBoundaries with ⟨s', _ | e⟩
      · rw [hs] at hup
        simp only
        rcases s'.lodAt p <;> exact ⟨hup.1, .inl hup.2⟩
      · rw [hs] at hup
        exact ⟨hup.1, .inl hup.2⟩
  | reorder order =>
    rw [EditCall.runShared, out]
    unfold Shared.changeGeomsOrder
    by_cases h : order.length ≠ s.slots.length
    · rw [if_pos h]; exact ⟨rfl, .inl rfl⟩
    rw [if_neg h]
    rcases vertexSize s.mesh.vattrs with e | vs
    · exact ⟨rfl, .inl rfl⟩
    simp only
    have h1 := reorderAt_length vs s.mesh s.slots order s.mesh.geoms ⟨[], []⟩
    have h2 := reorderAt_order vs s.mesh s.slots order s.mesh.geoms ⟨[], []⟩
    rcases hr : reorderAt vs s.mesh s.slots s.mesh.geoms ⟨[], []⟩ order with ⟨os, a, js, _ | e⟩
    · rw [hr] at h1 h2
      exact ⟨h1, .inr ⟨order, rfl, by omega, h2 rfl⟩⟩
    · rw [hr] at h1
      exact ⟨h1, .inl rfl⟩
  | merge o =>
    rw [EditCall.runShared, outm]
    unfold Shared.merge
    rcases canMerge s.look o with e | _ | _
    · exact ⟨rfl, .inl rfl⟩
    · exact ⟨rfl, .inl rfl⟩
    simp only
    have h1 := travAt2_length (mergeGeom s.mesh o) ⟨[], [], 0, 0, 0, 0⟩ s.mesh.geoms s.slots o.geoms
    rcases hr : travAt2 (mergeGeom s.mesh o) ⟨[], [], 0, 0, 0, 0⟩ s.mesh.geoms s.slots o.geoms with
      ⟨st, os, _ | e⟩
    · rw [hr] at h1
      simp only
      rw [(hfin os st).1, (hfin os st).2]
      exact ⟨h1, .inl rfl⟩
    · rw [hr] at h1
      exact ⟨h1, .inl rfl⟩
  | mergeSelf =>
    rw [EditCall.runShared, outm]
    unfold Shared.mergeSelf
    rcases canMerge s.look s.look with e | _ | _
    · exact ⟨rfl, .inl rfl⟩
    · exact ⟨rfl, .inl rfl⟩
    simp only
    have h1 := travAt_length (mergeGeomSelf s.mesh) ⟨[], [], 0, 0, 0, 0⟩ s.mesh.geoms s.slots
    rcases hr : travAt (mergeGeomSelf s.mesh) ⟨[], [], 0, 0, 0, 0⟩ s.mesh.geoms s.slots with
      ⟨st, os, _ | e⟩
    · rw [hr] at h1
      simp only
      rw [(hfin os st).1, (hfin os st).2]
      exact ⟨h1, .inl rfl⟩
    · rw [hr] at h1
      exact ⟨h1, .inl rfl⟩

theorem runShared_valid [Libm F] {s : Shared F} (hv : s.Valid) (c : EditCall F) :
    (c.runShared s).1.Valid := by
  obtain ⟨h1, h2⟩ := runShared_shape s c
  intro j hj
  rw [h1]
  rcases h2 with h2 | ⟨order, _, _, h2⟩
  · exact hv j (h2 ▸ hj)
  · obtain ⟨k, hk⟩ := List.mem_iff_getElem?.1 hj
    obtain ⟨id, _, hid⟩ := forall₂_get_right h2 hk
    rw [pyGet_pos] at hid
    rcases hp : pyPos s.slots.length id with _ | p
    · rw [hp] at hid; cases hid
    · rw [hp] at hid
      exact hv j (List.mem_of_getElem? hid)

theorem runShared_unshared [Libm F] {s : Shared F} (hu : s.Unshared) {c : EditCall F}
    (hc : c.once s.slots.length) :
    (c.runShared s).1.Unshared ∧ (c.runShared s).1.slots.length = s.slots.length := by
  obtain ⟨_, h2⟩ := runShared_shape s c
  rcases h2 with h2 | ⟨order, rfl, hlen, h2⟩
  · exact ⟨by unfold Shared.Unshared; rw [h2]; exact hu, by rw [h2]⟩
  · refine ⟨fun i k j hi hk => ?_, by rw [← h2.length_eq, hlen]⟩
    obtain ⟨a, ha, hpa⟩ := forall₂_get_right h2 hi
    obtain ⟨b, hb, hpb⟩ := forall₂_get_right h2 hk
    rw [pyGet_pos] at hpa hpb
    rcases hp : pyPos s.slots.length a with _ | p
    · rw [hp] at hpa; cases hpa
    rcases hq : pyPos s.slots.length b with _ | q
    · rw [hq] at hpb; cases hpb
    rw [hp] at hpa
    rw [hq] at hpb
    have : p = q := hu p q j hpa hpb
    subst this
    exact hc i k p a b ha hb (names_pyPos hp) (names_pyPos hq)

end methods

end Bf2
