import Verif.ReorderFailSpec
import Verif.HistoryLemmas

/-! # Lemmas: where a reorder stops -/

namespace Bf2

variable {F : Type}

/-- What every material raises, if anything. -/
def reorderFault (vs : Nat) (m : Mesh F) : Option Err :=
  match m.index with
  | .one _ => some .typeError
  | .many _ => if vs = 0 then some .zeroDivisionError else none

theorem reorderMat_fault {vs : Nat} {m : Mesh F} {e : Err} (h : reorderFault vs m = some e) (s : Arrays F)
    (a : Mat F) : ∃ s', reorderMat vs m s a = (s', a, some e) := by
  unfold reorderFault at h
  unfold reorderMat
  rcases hi : m.index with v | ix
  · rw [hi] at h
    cases h
    exact ⟨_, rfl⟩
  · rw [hi] at h
    simp only at h ⊢
    split_ifs at h ⊢
    cases h
    exact ⟨_, rfl⟩

theorem reorderMat_fine {vs : Nat} {m : Mesh F} (h : reorderFault vs m = none) (s : Arrays F) (a : Mat F) :
    (reorderMat vs m s a).2.2 = none := by
  unfold reorderFault at h
  unfold reorderMat
  rcases hi : m.index with v | ix
  · rw [hi] at h
    cases h
  · rw [hi] at h
    simp only at h ⊢
    split_ifs at h ⊢
    rfl

theorem reorderMat_unplaced (vs : Nat) (m : Mesh F) (s : Arrays F) (a : Mat F) :
    ({ (reorderMat vs m s a).2.1 with vstart := 0, istart := 0 } : Mat F) =
      { a with vstart := 0, istart := 0 } := by
  unfold reorderMat
  rcases m.index with v | ix
  · rfl
  · simp only
    split_ifs <;> rfl

/-- Elements that are skipped, or stop the loop unchanged. -/
theorem trav_stop {σ α : Type} {f : σ → α → σ × α × Option Err} {Q : α → Prop} {e : Err}
    (skip : ∀ s a, ¬ Q a → f s a = (s, a, none)) (stop : ∀ s a, Q a → ∃ s', f s a = (s', a, some e)) (s : σ)
    (l : List α) : ((∀ a ∈ l, ¬ Q a) → trav f s l = (s, l, none)) ∧
      ((∃ a ∈ l, Q a) → ∃ s', trav f s l = (s', l, some e)) := by
  induction l with
  | nil => simp [trav]
  | cons a as ih =>
    by_cases hq : Q a
    · refine ⟨fun h => absurd hq (h a (by simp)), fun _ => ?_⟩
      obtain ⟨s', hs⟩ := stop s a hq
      exact ⟨s', by rw [trav, hs]⟩
    · refine ⟨fun h => ?_, fun ⟨b, hb, hbq⟩ => ?_⟩
      · rw [trav, skip s a hq]
        simp only [ih.1 fun b hb => h b (by simp [hb])]
      · rcases List.mem_cons.1 hb with rfl | hb
        · exact absurd hbq hq
        · obtain ⟨s', hs⟩ := ih.2 ⟨b, hb, hbq⟩
          exact ⟨s', by rw [trav, skip s a hq]; simp only [hs]⟩

theorem reorderLod_fault {vs : Nat} {m : Mesh F} {e : Err} (h : reorderFault vs m = some e) (s : Arrays F)
    (l : Lod F) : (¬ l.materials ≠ [] → reorderLod vs m s l = (s, l, none)) ∧
      (l.materials ≠ [] → ∃ s', reorderLod vs m s l = (s', l, some e)) := by
  have ht := trav_stop (f := reorderMat vs m) (Q := fun _ => True) (e := e)
    (fun _ _ h => absurd trivial h) (fun s a _ => reorderMat_fault h s a) s l.materials
  constructor
  · intro hn
    rw [not_not] at hn
    rw [reorderLod, ht.1 (by simp [hn])]
  · intro hn
    obtain ⟨a, ha⟩ := List.exists_mem_of_ne_nil _ hn
    obtain ⟨s', hs⟩ := ht.2 ⟨a, ha, trivial⟩
    exact ⟨s', by rw [reorderLod, hs]⟩

theorem reorderGeom_fault {vs : Nat} {m : Mesh F} {e : Err} (h : reorderFault vs m = some e) (s : Arrays F)
    (g : Geom F) : (¬ g.mats ≠ [] → reorderGeom vs m s g = (s, g, none)) ∧
      (g.mats ≠ [] → ∃ s', reorderGeom vs m s g = (s', g, some e)) := by
  have ht := trav_stop (f := reorderLod vs m) (Q := fun l => l.materials ≠ []) (e := e)
    (fun s l => (reorderLod_fault h s l).1) (fun s l => (reorderLod_fault h s l).2) s g.lods
  have hm : g.mats ≠ [] ↔ ∃ l ∈ g.lods, l.materials ≠ [] := by
    unfold Geom.mats
    rw [ne_eq, List.flatMap_eq_nil_iff]
    push Not
    rfl
  constructor
  · intro hn
    rw [hm] at hn
    rw [reorderGeom, ht.1 (by simpa using hn)]
  · intro hn
    obtain ⟨s', hs⟩ := ht.2 (hm.1 hn)
    exact ⟨s', by rw [reorderGeom, hs]⟩

theorem reorderGeom_fine {vs : Nat} {m : Mesh F} (h : reorderFault vs m = none) (s : Arrays F) (g : Geom F) :
    (reorderGeom vs m s g).2.2 = none := by
  have hl : ∀ s (l : Lod F), (reorderLod vs m s l).2.2 = none := fun s l =>
    trav_ok l.materials (fun s a _ => reorderMat_fine h s a) s
  exact trav_ok g.lods (fun s l _ => hl s l) s

theorem map_eq_of_forall₂ {α β : Type} {f : α → β} {l l' : List α}
    (h : List.Forall₂ (fun a a' => f a' = f a) l l') : l'.map f = l.map f := by
  induction h with
  | nil => rfl
  | cons h _ ih => rw [List.map_cons, List.map_cons, h, ih]

theorem reorderGeom_unplaced (vs : Nat) (m : Mesh F) (s : Arrays F) (g : Geom F) :
    (reorderGeom vs m s g).2.1.unplaced = g.unplaced := by
  have hl : ∀ s (l : Lod F), ({ (reorderLod vs m s l).2.1 with
      materials := (reorderLod vs m s l).2.1.materials.map fun a => { a with vstart := 0, istart := 0 } } : Lod F) =
        { l with materials := l.materials.map fun a => { a with vstart := 0, istart := 0 } } := by
    intro s l
    have := map_eq_of_forall₂ (trav_forall₂ (R := fun a a' =>
      ({ a' with vstart := 0, istart := 0 } : Mat F) = { a with vstart := 0, istart := 0 })
      (fun s a => reorderMat_unplaced vs m s a) (fun _ => rfl) s l.materials)
    show ({ l with materials := (trav (reorderMat vs m) s l.materials).2.1.map _ } : Lod F) = _
    rw [this]
  have := map_eq_of_forall₂ (trav_forall₂ (R := fun (l l' : Lod F) =>
      ({ l' with materials := l'.materials.map fun a => { a with vstart := 0, istart := 0 } } : Lod F) =
        { l with materials := l.materials.map fun a => { a with vstart := 0, istart := 0 } })
      (fun s l => hl s l) (fun _ => rfl) s g.lods)
  show ({ g with lods := (trav (reorderLod vs m) s g.lods).2.1.map _ } : Geom F) = _
  rw [this]
  rfl

theorem unplaced_mats {g g' : Geom F} (h : g'.unplaced = g.unplaced) : g'.mats ≠ [] ↔ g.mats ≠ [] := by
  have hm : ∀ g : Geom F, g.mats ≠ [] ↔ g.unplaced.mats ≠ [] := by
    intro g
    unfold Geom.mats Geom.unplaced
    simp [List.flatMap_eq_nil_iff]
  rw [hm g, hm g', h]

theorem pyPos_none {n : Nat} {id : Int} (h : pyPos n id = none) : ∀ j, ¬ Names n id j := by
  intro j hj
  rw [pyPos_names hj] at h
  cases h

/-- What a loop that runs into an id out of range, or the end, leaves. -/
structure LoopSays (vs : Nat) (m : Mesh F) (gs : List (Geom F)) (ids : List Int) (r : Reordered F) : Prop where
  unplaced : r.geoms.map Geom.unplaced = gs.map Geom.unplaced
  order : r.err = none → List.Forall₂ (Names m.geoms.length) ids r.order
  clean : ∀ e, r.err = some e → e ≠ .indexError → r.geoms = gs
  raises : ∀ e, r.err = some e → ∃ k id, ids[k]? = some id ∧ Stops vs m id e ∧
    (∀ (i : Nat) id e, i < k → ids[i]? = some id → ¬ Stops vs m id e) ∧
    ∀ j, (∀ (i : Nat) id, i < k → ids[i]? = some id → ¬ Names m.geoms.length id j) → r.geoms[j]? = gs[j]?
  fine : r.err = none → ∀ id ∈ ids, ∀ e, ¬ Stops vs m id e

theorem stops_iff {vs : Nat} {m : Mesh F} {id : Int} {j : Nat} {g : Geom F} (hj : Names m.geoms.length id j)
    (hg : m.geoms[j]? = some g) (e : Err) :
    Stops vs m id e ↔ g.mats ≠ [] ∧ reorderFault vs m = some e := by
  constructor
  · rintro (h | ⟨h1, h2, h3, h4⟩ | ⟨h1, h2, h3, h4, h5⟩)
    · exact absurd hj (h j)
    · have := (pyPos_names h1).symm.trans (pyPos_names hj)
      cases this
      rw [hg] at h2
      cases h2
      exact ⟨h3, by simp [reorderFault, h4]⟩
    · have := (pyPos_names h1).symm.trans (pyPos_names hj)
      cases this
      rw [hg] at h2
      cases h2
      exact ⟨h3, by simp [reorderFault, h4, h5]⟩
  · rintro ⟨h1, h2⟩
    unfold reorderFault at h2
    rcases hi : m.index with v | ix
    · rw [hi] at h2
      cases h2
      exact .oneIndex hj hg h1 hi
    · rw [hi] at h2
      simp only at h2
      split_ifs at h2 with h0
      cases h2
      exact .noFloats hj hg h1 hi h0

theorem reorderGeoms_says (vs : Nat) (m : Mesh F) (ids : List Int) (gs : List (Geom F)) (s : Arrays F)
    (hgs : gs.map Geom.unplaced = m.geoms.map Geom.unplaced) :
    LoopSays vs m gs ids (reorderGeoms vs m gs s ids) := by
  have hlen : gs.length = m.geoms.length := by simpa using congrArg List.length hgs
  induction ids generalizing gs s with
  | nil => exact ⟨rfl, fun _ => .nil, fun _ h => (by cases h), fun _ h => (by cases h), fun _ _ h => (by simp at h)⟩
  | cons id ids ih =>
    rw [reorderGeoms]
    rcases hp : pyPos gs.length id with _ | j
    · rw [hlen] at hp
      refine ⟨rfl, fun h => (by cases h), fun _ _ _ => rfl, ?_, fun h => (by cases h)⟩
      intro e h
      cases h
      exact ⟨0, id, rfl, .noGeom (pyPos_none hp), fun i _ _ h => absurd h (by omega), fun _ _ => rfl⟩
    · have hj' := names_pyPos hp
      have hj : Names m.geoms.length id j := hlen ▸ hj'
      have hjl := hj'.1
      have hjm := hj.1
      simp only [List.getElem?_eq_getElem hjl]
      have hg := List.getElem?_eq_getElem hjm
      have hu : gs[j].unplaced = m.geoms[j].unplaced := by
        have := congrArg (fun l => l[j]?) hgs
        simpa [List.getElem?_eq_getElem hjl, hg] using this
      have hmats := unplaced_mats hu
      have hgu := reorderGeom_unplaced vs m s gs[j]
      have hst := stops_iff (vs := vs) hj hg
      rcases hr : reorderGeom vs m s gs[j] with ⟨s', g', _ | e⟩
      · rw [hr] at hgu
        simp only at hgu ⊢
        have hset : (gs.set j g').map Geom.unplaced = gs.map Geom.unplaced := by
          rw [List.map_set, hgu]
          apply List.ext_getElem?
          intro i
          rw [List.getElem?_set]
          split_ifs with h1 h2
          · subst h1; simp [hjl]
          · subst h1; simp at h2; omega
          · rfl
        have := ih (gs.set j g') s' (hset.trans hgs) (by simpa using hlen)
        rcases hrest : reorderGeoms vs m (gs.set j g') s' ids with ⟨gs', s'', js, e⟩
        rw [hrest] at this
        obtain ⟨h1, h2, h3, h4, h5⟩ := this
        simp only at h1 h2 h3 h4 h5 ⊢
        have hno : ∀ e, ¬ Stops vs m id e := by
          intro e hs
          obtain ⟨ha, hb⟩ := (hst e).1 hs
          obtain ⟨s2, hs2⟩ := (reorderGeom_fault hb s gs[j]).2 (hmats.2 ha)
          rw [hr] at hs2
          cases hs2
        refine ⟨h1.trans hset, fun h => .cons hj (h2 h), ?_, ?_, ?_⟩
        · intro e he hne
          rw [h3 e he hne]
          obtain ⟨k, id', -, hs, -⟩ := h4 e he
          have hf : reorderFault vs m = some e := by
            cases hs with
            | noGeom => exact absurd rfl hne
            | oneIndex a b c d => exact ((stops_iff a b _).1 (.oneIndex a b c d)).2
            | noFloats a b c d f => exact ((stops_iff a b _).1 (.noFloats a b c d f)).2
          have : g' = gs[j] := by
            by_cases hm : gs[j].mats ≠ []
            · obtain ⟨s2, hs2⟩ := (reorderGeom_fault hf s gs[j]).2 hm
              rw [hr] at hs2
              cases hs2
            · have := (reorderGeom_fault hf s gs[j]).1 hm
              rw [hr] at this
              cases this
              rfl
          rw [this]
          simp
        · intro e he
          obtain ⟨k, id', hk, hs, hb, hu⟩ := h4 e he
          refine ⟨k + 1, id', by simpa using hk, hs, ?_, ?_⟩
          · intro i id2 e2 hi hid
            rcases i with _ | i
            · simp only [List.getElem?_cons_zero, Option.some.injEq] at hid
              subst hid
              exact hno e2
            · exact hb i id2 e2 (by omega) (by simpa using hid)
          · intro j2 hj2
            rw [hu j2 fun i id2 hi hid => hj2 (i + 1) id2 (by omega) (by simpa using hid)]
            have hne : j ≠ j2 := by
              rintro rfl
              exact hj2 0 id (by omega) rfl hj
            rw [List.getElem?_set_ne hne]
        · intro he id2 hid
          rcases List.mem_cons.1 hid with rfl | hid
          · exact hno
          · exact h5 he id2 hid
      · simp only
        have hf : reorderFault vs m = some e ∧ gs[j].mats ≠ [] ∧ g' = gs[j] := by
          rcases hx : reorderFault vs m with _ | e2
          · have := reorderGeom_fine hx s gs[j]
            rw [hr] at this
            cases this
          · by_cases hm : gs[j].mats ≠ []
            · obtain ⟨s2, hs2⟩ := (reorderGeom_fault hx s gs[j]).2 hm
              rw [hr] at hs2
              cases hs2
              exact ⟨rfl, hm, rfl⟩
            · have := (reorderGeom_fault hx s gs[j]).1 hm
              rw [hr] at this
              cases this
        obtain ⟨hf, hm, rfl⟩ := hf
        have hself : gs.set j gs[j] = gs := by simp
        refine ⟨by simp only [hself], fun h => (by cases h), fun _ _ _ => hself, ?_, fun h => (by cases h)⟩
        intro e2 h
        cases h
        exact ⟨0, id, rfl, (hst _).2 ⟨hmats.1 hm, hf⟩, fun i _ _ h => absurd h (by omega), fun _ _ => by simp only [hself]⟩

end Bf2
