import Verif.TranslateLemmas

/-! # Lemmas about mutating loops over geoms, lods and materials -/

namespace Bf2

variable {F σ α β γ δ : Type}

theorem trav_length (f : σ → α → σ × α × Option Err) (s : σ) (l : List α) :
    (trav f s l).2.1.length = l.length := by
  induction l generalizing s with
  | nil => rfl
  | cons a as ih =>
    rw [trav]
    split
    · simp
    · rename_i s' a' h
      simp [ih]

/-- What every step keeps of an element the loop keeps of the list. -/
theorem trav_map (f : σ → α → σ × α × Option Err) (g : α → β)
    (h : ∀ s a, g (f s a).2.1 = g a) (s : σ) (l : List α) :
    (trav f s l).2.1.map g = l.map g := by
  induction l generalizing s with
  | nil => rfl
  | cons a as ih =>
    have ha := h s a
    rw [trav]
    split
    · rename_i s' a' e he
      rw [he] at ha
      simp [← ha]
    · rename_i s' a' he
      rw [he] at ha
      simp [← ha, ih]

theorem trav_append (f : σ → α → σ × α × Option Err) (s : σ) (l r : List α) :
    trav f s (l ++ r) = match trav f s l with
      | (s', l', some e) => (s', l' ++ r, some e)
      | (s', l', none) => match trav f s' r with
        | (s'', r', e) => (s'', l' ++ r', e) := by
  induction l generalizing s with
  | nil => rfl
  | cons a as ih =>
    rw [List.cons_append, trav, trav]
    rcases f s a with ⟨s', a', _ | e⟩
    · simp only [ih]
      rcases trav f s' as with ⟨s'', as', _ | e⟩ <;> rfl
    · rfl

/-- A loop over containers whose steps are loops over the contents is a loop over all contents. -/
theorem trav_flat (get : γ → List α) (f : σ → α → σ × α × Option Err)
    (g : σ → γ → σ × γ × Option Err)
    (h : ∀ s c, ((g s c).1, get (g s c).2.1, (g s c).2.2) = trav f s (get c)) (s : σ)
    (cs : List γ) :
    ((trav g s cs).1, (trav g s cs).2.1.flatMap get, (trav g s cs).2.2) =
      trav f s (cs.flatMap get) := by
  induction cs generalizing s with
  | nil => rfl
  | cons c cs ih =>
    rw [List.flatMap_cons, trav_append, ← h s c, trav]
    rcases g s c with ⟨s', c', _ | e⟩
    · simp only
      rw [← ih s']
      rfl
    · rfl

/-- The lods of a geom with what is kept when only materials change. -/
def Lod.shape (l : Lod F) : Lod F × Nat := ({ l with materials := [] }, l.materials.length)

theorem geom_shape (g : Geom F) : g.shape = (g.lodnum, g.lods.map Lod.shape) := rfl

/-- Lods with the same shapes and the same materials are equal. -/
theorem lods_ext {ls ls' : List (Lod F)} (h : ls.map Lod.shape = ls'.map Lod.shape)
    (hm : ls.flatMap Lod.materials = ls'.flatMap Lod.materials) : ls = ls' := by
  induction ls generalizing ls' with
  | nil =>
    have : ls' = [] := by simpa using h.symm
    exact this.symm
  | cons l ls ih =>
    cases ls' with
    | nil => simp at h
    | cons l' ls' =>
      simp only [List.map_cons, List.cons.injEq] at h
      simp only [List.flatMap_cons] at hm
      have hs := h.1
      simp only [Lod.shape, Prod.mk.injEq] at hs
      obtain ⟨h1, h2⟩ := List.append_inj hm hs.2
      rw [ih h.2 h2]
      congr 1
      cases l; cases l'
      simp_all

/-- Geoms with the same shapes and the same materials are equal. -/
theorem geoms_ext {gs gs' : List (Geom F)} (h : gs.map Geom.shape = gs'.map Geom.shape)
    (hm : gs.flatMap Geom.mats = gs'.flatMap Geom.mats) : gs = gs' := by
  induction gs generalizing gs' with
  | nil =>
    have : gs' = [] := by simpa using h.symm
    exact this.symm
  | cons g gs ih =>
    cases gs' with
    | nil => simp at h
    | cons g' gs' =>
      simp only [List.map_cons, List.cons.injEq] at h
      simp only [List.flatMap_cons] at hm
      have hs := h.1
      rw [geom_shape, geom_shape, Prod.mk.injEq] at hs
      have hl : g.mats.length = g'.mats.length := by
        have := congrArg (fun l => (l.map Prod.snd).sum) hs.2
        simpa [Geom.mats, List.length_flatMap, Lod.shape, Function.comp_def] using this
      obtain ⟨h1, h2⟩ := List.append_inj hm hl
      rw [ih h.2 h2]
      congr 1
      have := lods_ext hs.2 h1
      cases g; cases g'
      simp_all

theorem shape_mats_length {g g' : Geom F} (h : g.shape = g'.shape) :
    g.mats.length = g'.mats.length := by
  rw [geom_shape, geom_shape, Prod.mk.injEq] at h
  have := congrArg (fun l => (l.map Prod.snd).sum) h.2
  simpa [Geom.mats, List.length_flatMap, Lod.shape, Function.comp_def] using this

/-- A loop over the materials of lods. -/
def lodLift (f : σ → Mat F → σ × Mat F × Option Err) (s : σ) (l : Lod F) : σ × Lod F × Option Err :=
  match trav f s l.materials with
  | (s', ms, e) => (s', { l with materials := ms }, e)

/-- A loop over the materials of geoms. -/
def geomLift (f : σ → Mat F → σ × Mat F × Option Err) (s : σ) (g : Geom F) :
    σ × Geom F × Option Err :=
  match trav (lodLift f) s g.lods with
  | (s', ls, e) => (s', { g with lods := ls }, e)

/-- Such a loop over geoms is a loop over the flat list of materials; the shapes stay. -/
theorem trav_geoms (f : σ → Mat F → σ × Mat F × Option Err) (s : σ) (gs : List (Geom F)) :
    ((trav (geomLift f) s gs).1, (trav (geomLift f) s gs).2.1.flatMap Geom.mats,
      (trav (geomLift f) s gs).2.2) = trav f s (gs.flatMap Geom.mats) ∧
    (trav (geomLift f) s gs).2.1.map Geom.shape = gs.map Geom.shape := by
  have hlod : ∀ (s : σ) (ls : List (Lod F)), _ := fun s ls =>
    trav_flat Lod.materials f (lodLift f) (fun s l => rfl) s ls
  have hshape : ∀ (s : σ) (ls : List (Lod F)), _ := fun s ls =>
    trav_map (lodLift f) Lod.shape (fun s l => by
      simp only [lodLift, Lod.shape, trav_length]) s ls
  constructor
  · exact trav_flat Geom.mats f (geomLift f) (fun s g => hlod s g.lods) s gs
  · refine trav_map (geomLift f) Geom.shape (fun s g => ?_) s gs
    rw [geom_shape, geom_shape]
    simp only [geomLift]
    rw [hshape]

/-! ## Relations between lists -/

theorem forall₂_flatMap {R : α → β → Prop} {f : γ → List α} {g : δ → List β} {l : List γ}
    {r : List δ} (hlen : List.Forall₂ (fun c d => (f c).length = (g d).length) l r)
    (h : List.Forall₂ R (l.flatMap f) (r.flatMap g)) :
    List.Forall₂ (fun c d => List.Forall₂ R (f c) (g d)) l r := by
  induction hlen with
  | nil => exact .nil
  | @cons c d l r hcd _ ih =>
    rw [List.flatMap_cons, List.flatMap_cons] at h
    have h1 := List.forall₂_take (f c).length h
    have h2 := List.forall₂_drop (f c).length h
    rw [List.take_left, hcd, List.take_left] at h1
    rw [List.drop_left, hcd, List.drop_left] at h2
    exact .cons h1 (ih h2)

theorem forall₂_of_getElem? {R : α → β → Prop} {l : List α} {r : List β}
    (hlen : l.length = r.length)
    (h : ∀ (i : Nat) a b, l[i]? = some a → r[i]? = some b → R a b) : List.Forall₂ R l r := by
  rw [List.forall₂_iff_get]
  refine ⟨hlen, ?_⟩
  intro i h1 h2
  exact h i _ _ (by simp) (by simp)

theorem forall₂_getElem? {R : α → β → Prop} {l : List α} {r : List β} (h : List.Forall₂ R l r)
    {i : Nat} {a : α} (ha : l[i]? = some a) : ∃ b, r[i]? = some b ∧ R a b := by
  induction h generalizing i with
  | nil => simp at ha
  | cons hab _ ih =>
    cases i with
    | zero => simp at ha; subst ha; exact ⟨_, by simp, hab⟩
    | succ i => simp at ha; simpa using ih ha

end Bf2
