import Verif.SharedLemmas
import Verif.Props.Reorder

/-!
# C134: one geom object in two places

The model of the editing methods keeps values of geoms; the code keeps references to geom objects.
These theorems say when that makes no difference.
-/

namespace Bf2

variable {F : Type} [FArith F] [Libm F]

/-! ## Without sharing -/

omit [FArith F] [Libm F] in
/-- A loaded mesh shares nothing, and what is seen is the mesh. -/
theorem C134_loaded (m : Mesh F) :
    (Shared.loaded m).look = m ∧ (Shared.loaded m).Valid ∧ (Shared.loaded m).Unshared := by
  refine ⟨?_, fun j hj => List.mem_range.1 hj, fun i k j hi hk => ?_⟩
  · unfold Shared.look Shared.loaded
    rw [filterMap_range]
  · unfold Shared.loaded at hi hk
    simp only at hi hk
    rw [List.getElem?_eq_some_iff] at hi hk
    obtain ⟨_, h1⟩ := hi
    obtain ⟨_, h2⟩ := hk
    rw [List.getElem_range] at h1 h2
    omega

/-- Without sharing every call (any order, also one that names a geom twice or raises) does to what
is seen, and returns or raises, what the model without references says. -/
theorem C134_call {s : Shared F} (valid : s.Valid) (unshared : s.Unshared) (c : EditCall F) :
    ((c.runShared s).1.look, (c.runShared s).2) = c.run s.look := by
  have out : ∀ (r : Shared F × Option Err),
      ((outcome (F := F) r).1.look, (outcome (F := F) r).2) = outcome (Shared.seen r) := by
    rintro ⟨t, _ | e⟩ <;> rfl
  have outm : ∀ (r : Shared F × Except Err MergeRet),
      ((outcomeMerge (F := F) r).1.look, (outcomeMerge (F := F) r).2) =
        outcomeMerge (Shared.seen r) := by
    rintro ⟨t, e | _ | _⟩ <;> rfl
  cases c with
  | translate d => exact (out _).trans (congrArg outcome (translate_seen s d))
  | rotate d => exact (out _).trans (congrArg outcome (rotate_seen s d))
  | update => exact (out _).trans (congrArg outcome (update_seen valid unshared))
  | center g l u =>
    have outp : ∀ (r : Shared F × Except Err (Vec3 F)),
        ((outcomePoint r).1.look, (outcomePoint r).2) = outcomePoint (Shared.seen r) := by
      rintro ⟨t, e | _⟩ <;> rfl
    exact (outp _).trans (congrArg outcomePoint (center_seen valid unshared g l u))
  | reorder order => exact (out _).trans (congrArg outcome (changeOrder_seen valid unshared order))
  | merge o => exact (outm _).trans (congrArg outcomeMerge (merge_seen valid unshared o))
  | mergeSelf => exact (outm _).trans (congrArg outcomeMerge (mergeSelf_seen valid unshared))

/-- A call whose order, if it has one, names no geom twice, shares nothing that was not shared. -/
theorem C134_stays_unshared {s : Shared F} (valid : s.Valid) (unshared : s.Unshared) {c : EditCall F}
    (once : c.once s.look.geoms.length) :
    (c.runShared s).1.Valid ∧ (c.runShared s).1.Unshared ∧
      (c.runShared s).1.look.geoms.length = s.look.geoms.length := by
  have hl : s.look.geoms.length = s.slots.length := lookAt_length valid
  have hv := runShared_valid valid c
  obtain ⟨h1, h2⟩ := runShared_unshared unshared (hl ▸ once)
  have hl' : (c.runShared s).1.look.geoms.length = (c.runShared s).1.slots.length := lookAt_length hv
  exact ⟨hv, h1, by rw [hl', hl, h2]⟩

/-- From a loaded mesh on: while no order names a geom twice, and for one call of any kind after
that, the model without references says what is seen and what every call returns or raises. -/
theorem C134_history (m : Mesh F) (cs : List (EditCall F)) (c : EditCall F)
    (once : ∀ d ∈ cs, d.once m.geoms.length) :
    let r := runCalls EditCall.runShared (Shared.loaded m) (cs ++ [c])
    (r.1.look, r.2) = runCalls EditCall.run m (cs ++ [c]) := by
  have key : ∀ (cs : List (EditCall F)) (s : Shared F), s.Valid → s.Unshared →
      (∀ d ∈ cs, d.once s.look.geoms.length) →
      ((runCalls EditCall.runShared s (cs ++ [c])).1.look,
        (runCalls EditCall.runShared s (cs ++ [c])).2) = runCalls EditCall.run s.look (cs ++ [c]) := by
    intro cs
    induction cs with
    | nil =>
      intro s hv hu _
      have h := C134_call hv hu c
      rw [List.nil_append, runCalls, runCalls, ← h]
      rfl
    | cons d ds ih =>
      intro s hv hu ho
      have h := C134_call hv hu d
      obtain ⟨hv', hu', hl⟩ := C134_stays_unshared hv hu (ho d (by simp))
      have h' := ih (d.runShared s).1 hv' hu' fun e he => by rw [hl]; exact ho e (by simp [he])
      rw [List.cons_append, runCalls, runCalls, ← h]
      simp only
      rw [← h']
  obtain ⟨h1, h2, h3⟩ := C134_loaded m
  have := key cs (Shared.loaded m) h2 h3 (by rw [h1]; exact once)
  rw [h1] at this
  exact this

/-! ## With sharing -/

/-- Whatever the orders, every reference stays a reference to an object. -/
theorem C134_valid {s : Shared F} (valid : s.Valid) (c : EditCall F) : (c.runShared s).1.Valid :=
  runShared_valid valid c

/-- Moving, turning and updating the bounds do not mind sharing: same outcome, and if the call does not
raise, what is seen is the same. -/
theorem C134_gentle {s : Shared F} (valid : s.Valid) {c : EditCall F} (gentle : c.gentle) :
    (c.runShared s).2 = (c.run s.look).2 ∧
      (∀ r, (c.runShared s).2 = .ok r → (c.runShared s).1.look = (c.run s.look).1) := by
  have out : ∀ (r : Shared F × Option Err) (p : Mesh F × Option Err), r.2 = p.2 →
      (r.2 = none → r.1.look = p.1) → (outcome (F := F) r).2 = (outcome (F := F) p).2 ∧
        ∀ x, (outcome (F := F) r).2 = .ok x → (outcome (F := F) r).1.look = (outcome (F := F) p).1 := by
    rintro ⟨t, _ | e⟩ ⟨n, _ | e'⟩ h1 h2
    · exact ⟨rfl, fun _ _ => h2 rfl⟩
    · cases h1
    · cases h1
    · cases h1
      exact ⟨rfl, fun x hx => by simp [outcome] at hx⟩
  cases c with
  | translate d =>
    have h := translate_seen s d
    exact out _ _ (congrArg Prod.snd h) fun _ => congrArg Prod.fst h
  | rotate d =>
    have h := rotate_seen s d
    exact out _ _ (congrArg Prod.snd h) fun _ => congrArg Prod.fst h
  | update => exact out _ _ (update_seen_any valid).1 (update_seen_any valid).2
  | center g l u =>
    obtain ⟨h1, h2⟩ := center_seen_any valid g l u
    simp only [EditCall.runShared, EditCall.run]
    rcases hr : s.getLodCenterOffset g l u with ⟨t, r⟩
    rcases hp : getLodCenterOffset s.look g l u with ⟨n, q⟩
    rw [hr] at h1 h2
    rw [hp] at h1 h2
    simp only at h1 h2
    subst h1
    rcases r with e | p
    · exact ⟨rfl, fun x hx => by simp [outcomePoint] at hx⟩
    · exact ⟨rfl, fun _ _ => h2 p rfl⟩
  | reorder _ => exact gentle.elim
  | merge _ => exact gentle.elim
  | mergeSelf => exact gentle.elim

omit [FArith F] [Libm F]

/-- A mesh of two geoms with one vertex and one index each. -/
def pairOf (z : F) (a b : F) : Mesh F :=
  meshOf z [⟨0, 0, 0, 0⟩] 4 2 [[(0, 1, 0, 1)], [(1, 1, 1, 1)]] [a, b] [0, 0]

theorem pairOf_verts (z a b : F) : TiledVerts 1 (pairOf z a b) where
  pos := by decide
  size := ⟨[1], rfl, rfl⟩
  nonneg := by simp [pairOf, meshOf, geomOf, matOf, Mesh.mats, Geom.mats]
  start := starts_of rfl
  total := rfl

theorem pairOf_index (z a b : F) : TiledIndex (pairOf z a b) where
  nonneg := by simp [pairOf, meshOf, geomOf, matOf, Mesh.mats, Geom.mats]
  start := starts_of rfl
  total := rfl

/-- The order `[0, 0]` gives a mesh with one object in two places, valid but shared. -/
example : ((Shared.loaded (pairOf 0 7 8)).changeGeomsOrder [0, 0]).1.slots = [0, 0] ∧
    ((Shared.loaded (pairOf 0 7 8)).changeGeomsOrder [0, 0]).2 = none ∧
    ¬ ((Shared.loaded (pairOf 0 7 8)).changeGeomsOrder [0, 0]).1.Unshared := by
  have h : ((Shared.loaded (pairOf 0 7 8)).changeGeomsOrder [0, 0]).1.slots = [0, 0] := by
    decide +kernel
  refine ⟨h, by decide +kernel, fun hu => ?_⟩
  exact absurd (hu 0 1 0 (by rw [h]; rfl) (by rw [h]; rfl)) (by decide)

/-- `[1, 7, 0]` and `[2, 0, 1]` name no geom of three twice; `[1, -2, 0]` names geom 1 twice. -/
example : NamesOnce 3 [1, 7, 0] ∧ NamesOnce 3 [2, 0, 1] ∧ ¬ NamesOnce 3 [1, -2, 0] := by
  refine ⟨?_, ?_, fun h => ?_⟩
  · intro i k j a b hi hk ha hb
    unfold Names at ha hb
    rcases i with _ | _ | _ | i <;> rcases k with _ | _ | _ | k <;> simp at hi hk <;> omega
  · intro i k j a b hi hk ha hb
    unfold Names at ha hb
    rcases i with _ | _ | _ | i <;> rcases k with _ | _ | _ | k <;> simp at hi hk <;> omega
  · exact absurd (h 0 1 1 1 (-2) rfl rfl (by unfold Names; omega) (by unfold Names; omega)) (by decide)

/-- With sharing `merge` differs.  Both places hold geom 0, with vertex `7`; the other mesh has the
vertices `20` and `30`.  Merging values would give `7, 20` and `7, 30`.  In the code the second place
is visited with what the first visit wrote: both places get the three vertices `7, 7, 30`, and `20`
belongs to no geom. -/
theorem C134_merge_loses :
    ∃ (m o : Mesh Nat), TiledVerts 1 m ∧ TiledIndex m ∧ TiledVerts 1 o ∧ TiledIndex o ∧
      let s := ((Shared.loaded m).changeGeomsOrder [0, 0]).1
      ((Shared.loaded m).changeGeomsOrder [0, 0]).2 = none ∧
      s.look.mats.map (vertexData 1 s.look) = [[7], [7]] ∧
      o.mats.map (vertexData 1 o) = [[20], [30]] ∧
      (merge s.look o).1.mats.map (vertexData 1 (merge s.look o).1) = [[7, 20], [7, 30]] ∧
      (s.merge o).2 = .ok .done ∧
      (s.merge o).1.look.mats.map (vertexData 1 (s.merge o).1.look) = [[7, 7, 30], [7, 7, 30]] ∧
      (s.merge o).1.look.vertices = [7, 20, 7, 7, 30] :=
  ⟨pairOf 0 7 8, pairOf 0 20 30, pairOf_verts _ _ _, pairOf_index _ _ _, pairOf_verts _ _ _,
    pairOf_index _ _ _, by decide +kernel⟩

end Bf2
