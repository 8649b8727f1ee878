import Verif.ReorderFailLemmas
import Verif.Props.Reorder

/-!
# C143: when `change_geoms_order` raises, and what it leaves

C31 and C33 have two of the causes, the second for meshes whose ranges are in order.  Here is every cause,
for every mesh.
-/

namespace Bf2

variable {F : Type}

theorem Stops.unique {vs : Nat} {m : Mesh F} {id : Int} {e e' : Err} (h : Stops vs m id e)
    (h' : Stops vs m id e') : e = e' := by
  rcases h with h | ⟨h1, h2, h3, h4⟩ | ⟨h1, h2, h3, h4, h5⟩ <;>
    rcases h' with h' | ⟨h1', h2', h3', h4'⟩ | ⟨h1', h2', h3', h4', h5'⟩ <;> first
    | rfl
    | exact absurd h1' (h _)
    | exact absurd h1 (h' _)
    | (rw [h4] at h4'; cases h4')

theorem FirstStop.unique {vs : Nat} {m : Mesh F} {order : List Int} {k k' : Nat} {e e' : Err}
    (h : FirstStop vs m order k e) (h' : FirstStop vs m order k' e') : k = k' ∧ e = e' := by
  obtain ⟨id, h1, h2, h3⟩ := h
  obtain ⟨id', h1', h2', h3'⟩ := h'
  have : k = k' := by
    rcases lt_trichotomy k k' with hl | rfl | hl
    · exact absurd h2 (h3' k id e hl h1)
    · rfl
    · exact absurd h2' (h3 k' id' e' hl h1')
  subst this
  rw [h1] at h1'
  cases h1'
  exact ⟨rfl, h2.unique h2'⟩

/-- **C143.** A wrong number of ids: `AttributeError`, nothing changed. -/
theorem C143_wrong_number (m : Mesh F) (order : List Int) (h : order.length ≠ m.geoms.length) :
    changeGeomsOrder m order = (m, some .attributeError) := C31_wrong_length m order h

/-- **C143.** An attribute in use with a type that the code does not know: `ValueError`, nothing changed. -/
theorem C143_unknown_type (m : Mesh F) (order : List Int) (len : order.length = m.geoms.length)
    (unknown : ∀ vs, ¬ VertexSize m.vattrs vs) : changeGeomsOrder m order = (m, some .valueError) := by
  rw [changeGeomsOrder, if_neg (by omega)]
  rcases h : vertexSize m.vattrs with e | vs
  · rw [vertexSize_error _ h]
  · exact absurd ((vertexSize_iff _ _).1 h) (unknown vs)

/-- What the loop says, in terms of the method. -/
theorem changeGeomsOrder_says {vs : Nat} {m : Mesh F} {order : List Int} (size : VertexSize m.vattrs vs)
    (len : order.length = m.geoms.length) :
    let r := reorderGeoms vs m m.geoms ⟨[], []⟩ order
    LoopSays vs m m.geoms order r ∧ (changeGeomsOrder m order).2 = r.err ∧
      (∀ e, r.err = some e → (changeGeomsOrder m order).1 = { m with geoms := r.geoms }) ∧
      (r.err = none → (changeGeomsOrder m order).1 = { m with
        geoms := r.order.filterMap fun j => r.geoms[j]?
        vertices := r.arrays.vertices, index := .many r.arrays.index }) := by
  dsimp only
  have h := reorderGeoms_says vs m order m.geoms ⟨[], []⟩ rfl
  rw [changeGeomsOrder, if_neg (by omega), (vertexSize_iff _ _).2 size]
  dsimp only
  refine ⟨h, ?_⟩
  rcases reorderGeoms vs m m.geoms ⟨[], []⟩ order with ⟨gs, s, js, _ | e⟩
  · exact ⟨rfl, fun _ h => (by cases h), fun _ => rfl⟩
  · exact ⟨rfl, fun _ _ => rfl, fun h => (by cases h)⟩

/-- **C143.** Otherwise the first id at which it stops decides, and it raises nothing if there is none. -/
theorem C143_raises_iff {vs : Nat} {m : Mesh F} {order : List Int} (size : VertexSize m.vattrs vs)
    (len : order.length = m.geoms.length) (e : Err) :
    (changeGeomsOrder m order).2 = some e ↔ ∃ k, FirstStop vs m order k e := by
  obtain ⟨h, he, -⟩ := changeGeomsOrder_says size len
  rw [he]
  constructor
  · intro hr
    obtain ⟨k, id, h1, h2, h3, -⟩ := h.raises e hr
    exact ⟨k, id, h1, h2, h3⟩
  · rintro ⟨k, hk⟩
    rcases hr : (reorderGeoms vs m m.geoms ⟨[], []⟩ order).err with _ | e'
    · obtain ⟨id, h1, h2, -⟩ := hk
      exact absurd h2 (h.fine hr id (List.mem_of_getElem? h1) e)
    · obtain ⟨k', id, h1, h2, h3, -⟩ := h.raises e' hr
      rw [(hk.unique ⟨id, h1, h2, h3⟩).2]

/-- **C143.** Exactly when it raises nothing. -/
theorem C143_ok_iff (m : Mesh F) (order : List Int) :
    (changeGeomsOrder m order).2 = none ↔ order.length = m.geoms.length ∧
      ∃ vs, VertexSize m.vattrs vs ∧ ∀ id ∈ order, ∀ e, ¬ Stops vs m id e := by
  constructor
  · intro h
    by_cases len : order.length = m.geoms.length
    · refine ⟨len, ?_⟩
      by_cases size : ∃ vs, VertexSize m.vattrs vs
      · obtain ⟨vs, size⟩ := size
        obtain ⟨h1, he, -⟩ := changeGeomsOrder_says size len
        exact ⟨vs, size, h1.fine (he.symm.trans h)⟩
      · push Not at size
        rw [C143_unknown_type m order len size] at h
        cases h
    · rw [C31_wrong_length m order len] at h
      cases h
  · rintro ⟨len, vs, size, hs⟩
    rcases h : (changeGeomsOrder m order).2 with _ | e
    · rfl
    · obtain ⟨k, id, h1, h2, -⟩ := (C143_raises_iff size len e).1 h
      exact absurd h2 (hs id (List.mem_of_getElem? h1) e)

/-- **C143.** After an exception vertices and indices are as they were, and the geoms are the same but for
where the data of their materials starts; so are, entirely, those that no id in front of the bad one names.
Only an `IndexError` leaves any change. -/
theorem C143_left_behind {m m' : Mesh F} {order : List Int} {e : Err}
    (h : changeGeomsOrder m order = (m', some e)) :
    m' = { m with geoms := m'.geoms } ∧ m'.geoms.map Geom.unplaced = m.geoms.map Geom.unplaced ∧
      (e ≠ .indexError → m' = m) ∧
      ∀ vs k, VertexSize m.vattrs vs → order.length = m.geoms.length → FirstStop vs m order k e →
        ∀ j, (∀ (i : Nat) id, i < k → order[i]? = some id → ¬ Names m.geoms.length id j) →
          m'.geoms[j]? = m.geoms[j]? := by
  by_cases len : order.length = m.geoms.length
  · by_cases size : ∃ vs, VertexSize m.vattrs vs
    · obtain ⟨vs, size⟩ := size
      obtain ⟨h1, he, hm, -⟩ := changeGeomsOrder_says size len
      rw [h] at he hm
      have hm := hm e he.symm
      simp only at hm
      subst hm
      refine ⟨rfl, h1.unplaced, fun hne => by rw [h1.clean e he.symm hne], ?_⟩
      intro vs' k size' _ hk j hj
      have : vs' = vs := by
        have := ((vertexSize_iff _ _).2 size').symm.trans ((vertexSize_iff _ _).2 size)
        cases this
        rfl
      subst this
      obtain ⟨k', id, g1, g2, g3, g4⟩ := h1.raises e he.symm
      obtain rfl := (hk.unique ⟨id, g1, g2, g3⟩).1
      exact g4 j hj
    · push Not at size
      rw [C143_unknown_type m order len size] at h
      cases h
      exact ⟨rfl, rfl, fun _ => rfl, fun _ _ _ _ _ _ _ => rfl⟩
  · rw [C31_wrong_length m order len] at h
    cases h
    exact ⟨rfl, rfl, fun _ => rfl, fun _ _ _ _ _ _ _ => rfl⟩

/-- **C143.** If it raises nothing, the geoms named are listed in the order of the ids, the same but for
where their data starts, and nothing but geoms, vertices and indices changes. -/
theorem C143_geoms_listed {m m' : Mesh F} {order : List Int} (h : changeGeomsOrder m order = (m', none)) :
    m' = { m with geoms := m'.geoms, vertices := m'.vertices, index := m'.index } ∧
      List.Forall₂ (fun id g' => ∃ j g, Names m.geoms.length id j ∧ m.geoms[j]? = some g ∧
        g'.unplaced = g.unplaced) order m'.geoms := by
  obtain ⟨len, vs, size, -⟩ := (C143_ok_iff m order).1 (by rw [h])
  obtain ⟨h1, he, -, hm⟩ := changeGeomsOrder_says size len
  rw [h] at he hm
  have hm := hm he.symm
  simp only at hm
  subst hm
  refine ⟨rfl, ?_⟩
  have ho := h1.order he.symm
  have hu := h1.unplaced
  revert ho
  generalize (reorderGeoms vs m m.geoms ⟨[], []⟩ order).order = js
  generalize (reorderGeoms vs m m.geoms ⟨[], []⟩ order).geoms = gs at hu
  intro ho
  clear * - ho hu
  induction ho with
  | nil => exact .nil
  | @cons id j ids js hn _ ih =>
    have hlen : gs.length = m.geoms.length := by simpa using congrArg List.length hu
    have hj : j < gs.length := hlen ▸ hn.1
    rw [List.filterMap_cons, List.getElem?_eq_getElem hj]
    refine .cons ⟨j, m.geoms[j]'hn.1, hn, List.getElem?_eq_getElem hn.1, ?_⟩ ih
    have := congrArg (fun l => l[j]?) hu
    simpa [List.getElem?_eq_getElem hj, List.getElem?_eq_getElem hn.1] using this

/-- Three geoms of one material each.  The second id is bad: geom 0, of which the third id speaks, is as it
was; a bare index, no attribute, an unknown type. -/
example : (changeGeomsOrder (triple 0 [7, 8, 9]) [1, 7, 0]).2 = some .indexError ∧
    FirstStop 1 (triple 0 [7, 8, 9]) [1, 7, 0] 1 .indexError ∧
    (changeGeomsOrder (triple 0 [7, 8, 9]) [1, 7, 0]).1.mats.map (fun a => (a.vstart, a.istart)) ≠
      (triple 0 [7, 8, 9]).mats.map (fun a => (a.vstart, a.istart)) ∧
    changeGeomsOrder { triple 0 [7, 8, 9] with index := .one 4 } [1, 7, 0] =
      ({ triple 0 [7, 8, 9] with index := .one 4 }, some .typeError) ∧
    changeGeomsOrder { triple 0 [7, 8, 9] with vattrs := [] } [1, 7, 0] =
      ({ triple 0 [7, 8, 9] with vattrs := [] }, some .zeroDivisionError) ∧
    changeGeomsOrder { triple 0 [7, 8, 9] with index := .one 4 } [7, 1, 0] =
      ({ triple 0 [7, 8, 9] with index := .one 4 }, some .indexError) ∧
    changeGeomsOrder { triple 0 [7, 8, 9] with vattrs := [⟨0, 0, 99, 0⟩] } [2, 1, 0] =
      ({ triple 0 [7, 8, 9] with vattrs := [⟨0, 0, 99, 0⟩] }, some .valueError) ∧
    (changeGeomsOrder (triple 0 [7, 8, 9]) [-1, 1, -1]).2 = none := by
  refine ⟨by decide +kernel, ⟨7, rfl, .noGeom ?_, ?_⟩, by decide +kernel, by decide +kernel,
    by decide +kernel, by decide +kernel, by decide +kernel, by decide +kernel⟩
  · rintro j ⟨h1, h2⟩
    change j < 3 at h1
    change (7 : Int) = j ∨ (7 : Int) = j - (3 : Nat) at h2
    omega
  · intro i id e hi hid hs
    obtain rfl : i = 0 := by omega
    simp only [List.getElem?_cons_zero, Option.some.injEq] at hid
    subst hid
    have hn : Names (triple 0 [7, 8, 9]).geoms.length 1 1 := ⟨by decide, .inl rfl⟩
    rcases hs with h | ⟨-, -, -, h⟩ | ⟨-, -, -, -, h⟩
    · exact h 1 hn
    · cases h
    · cases h

end Bf2
