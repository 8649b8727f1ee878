import Verif.HistoryLemmas
import Verif.Props.Format
import Verif.Props.Rotate
import Verif.Props.Merge

/-!
# Properties of edit histories (C50)
-/

namespace Bf2

variable {F : Type}

/-! ## Samples -/

/-- Two geoms with a position, a normal and a texture coordinate per vertex; one vertex in the
first and two vertices in the second. -/
def twoGeoms (vs : List F64) : Mesh F64 :=
  meshOf (flt 0) vecAttrs 32 3 [[(0, 1, 0, 3)], [(1, 2, 3, 3)]] vs [0, 0, 0, 0, 1, 0]

theorem twoGeoms_orderly (vs : List F64) (h : vs.length = 24) : Orderly 8 (twoGeoms vs) where
  wf := by
    have hm : ∀ r, MatWF (F := F64) staticKind 10 (matOf r) := fun r => by
      constructor <;> simp [matOf, staticKind]
    have hg : ∀ rs, GeomWF (F := F64) staticKind 10 (geomOf (flt 0) rs) := fun rs => by
      refine ⟨rfl, fun l hl => ?_, fun l hl => ?_⟩ <;>
        simp only [geomOf, List.mem_singleton] at hl <;> subst hl
      · constructor <;> simp [staticKind]
      · refine ⟨by simp, fun a ha => ?_⟩
        obtain ⟨r, -, rfl⟩ := List.mem_map.1 ha
        exact hm r
    refine ⟨rfl, ?_, rfl, show (4 : Int) ≠ 0 by decide, ?_, ?_, ?_, ?_⟩
    · intro g hg'
      simp only [twoGeoms, meshOf, List.map_cons, List.map_nil, List.mem_cons, List.not_mem_nil,
        or_false] at hg'
      rcases hg' with rfl | rfl <;> exact hg _
    · change (vs.length : Int) = intDivMul 32 4 3
      rw [h]; decide +kernel
    · change vs.length ≠ 1; omega
    · exact ⟨show (0 : Int) ≤ 6 by decide, show (6 : Int) ≠ 1 by decide, rfl⟩
    · exact fun _ => rfl
  verts := {
    pos := by decide
    size := ⟨[3, 3, 2], rfl, rfl⟩
    nonneg := by simp [twoGeoms, meshOf, geomOf, matOf, Mesh.mats, Geom.mats]
    start := starts_of rfl
    total := by
      change (vs.length : Int) = _
      rw [h]; rfl }
  index := {
    nonneg := by simp [twoGeoms, meshOf, geomOf, matOf, Mesh.mats, Geom.mats]
    start := starts_of rfl
    total := rfl }
  many := ⟨_, rfl⟩
  stride := rfl
  count := by
    change (vs.length : Int) = _
    rw [h]; rfl
  size := by change vs.length ≤ _; omega
  vectors := rotatable_float3 (flt 0) vs
  fit := show ∀ v ∈ [0, 0, 0, 0, 1, 0], IsShort v by unfold IsShort; decide

section
variable [Libm F64]

/-! ## C50: any edit history keeps a mesh saveable -/

theorem step_kept {vs : Nat} {m m' : Mesh F64} (h : Orderly vs m) (s : Step m m') :
    Orderly vs m' ∧ SameFormat m m' := by
  cases s with
  | translate d =>
    obtain ⟨l, he, hl⟩ := translate_any h.verts d
    rw [he]
    exact ⟨h.set_vertices hl, ⟨rfl, rfl, rfl, rfl, rfl, rfl, rfl, rfl, rfl⟩⟩
  | rotate r =>
    by_cases hr : (rotate m r).2 = none
    · obtain ⟨l, he, hl, -⟩ := C26_rotate_vectors_only h.verts h.vectors r hr
      rw [he]
      exact ⟨h.set_vertices hl, ⟨rfl, rfl, rfl, rfl, rfl, rfl, rfl, rfl, rfl⟩⟩
    · rw [C26_rotate_atomic m r hr]
      exact ⟨h, .refl m⟩
  | update => exact ⟨h.update, update_format m⟩
  | center g l b =>
    rcases center_mesh m g l b with he | he <;> rw [he]
    · exact ⟨h, .refl m⟩
    · exact ⟨h.update, update_format m⟩
  | reorder hp => exact ⟨h.reorder hp, reorder_format m _⟩
  | merge ho he hs => exact h.merge_any ho he hs
  | mergeSelf he hs =>
    rw [C42_self_merge] at he
    exact h.merge_any h he hs
  | saveLoad hs hl =>
    rw [C02_reload_of_export _ _ _ h.wf hs] at hl
    obtain rfl := Except.ok.inj hl
    exact ⟨h.map _, ⟨rfl, rfl, rfl, rfl, rfl, rfl, rfl, rfl, rfl⟩⟩

/-- Whatever the history, a mesh in good order is in good order afterwards, of the same kind,
version and vertex format. -/
theorem C50_history_keeps_order {vs : Nat} {m m' : Mesh F64} (h : Orderly vs m)
    (history : History m m') : Orderly vs m' ∧ SameFormat m m' := by
  induction history with
  | refl => exact ⟨h, .refl m⟩
  | tail _ s ih =>
    obtain ⟨h1, h2⟩ := step_kept ih.1 s
    exact ⟨h1, ih.2.trans h2⟩

/-- After any history, a file that `export` wrote without raising loads to the mesh as it was, each
float rounded to a 32-bit float. -/
theorem C50_export_reloads {vs : Nat} {m m' : Mesh F64} (h : Orderly vs m) (history : History m m')
    {pl : Plat} {file : Bytes} (saved : exportMesh pl m' = ⟨file, none⟩) :
    load pl m.kind file = .ok (m'.map fun x => unpackF (packF x)) := by
  obtain ⟨h', hf⟩ := C50_history_keeps_order h history
  rw [← hf.kind]
  exact C02_reload_of_export pl m' file h'.wf saved

/-- After any history, `export` raises only if some number of the mesh does not fit its field. -/
theorem C50_export_succeeds_iff {vs : Nat} {m m' : Mesh F64} (h : Orderly vs m)
    (history : History m m') (pl : Plat) : (exportMesh pl m').err = none ↔ InRange pl m' := by
  obtain ⟨h', -⟩ := C50_history_keeps_order h history
  obtain ⟨l, hl⟩ := h'.many
  exact exportMesh_err h'.wf hl

end

section
attribute [local instance] quarterTurn

/-- Moved, turned, geoms swapped and merged with itself. -/
def edited : Mesh F64 :=
  (mergeSelf (changeGeomsOrder (rotate (translate (twoGeoms ((List.range 24).map flt))
    [flt 1, flt 2, flt 3]).1 [flt 0, flt 0, flt 0]).1 [-1, 0]).1).1

theorem edited_history : History (twoGeoms ((List.range 24).map flt)) edited := by
  have hp : Permutes 2 [-1, 0] [1, 0] :=
    ⟨.cons ⟨by decide, by decide⟩ (.cons ⟨by decide, by decide⟩ .nil), by decide⟩
  refine .tail (.tail (.tail (.tail .refl (.translate [flt 1, flt 2, flt 3])) (.rotate [flt 0, flt 0, flt 0]))
    (.reorder (order := [-1, 0]) (js := [1, 0]) ?_)) (.mergeSelf (r := .done) ?_ ?_)
  · have : (rotate (translate (twoGeoms ((List.range 24).map flt)) [flt 1, flt 2, flt 3]).1
        [flt 0, flt 0, flt 0]).1.geoms.length = 2 := by decide +kernel
    rw [this]
    exact hp
  · exact Prod.ext rfl (by decide +kernel)
  · decide +kernel

/-- The edited mesh has twice the vertices and can be saved. -/
example : edited.vertices.length = 48 ∧ edited.vertices.take 2 = [flt 9, (flt 13).negate] ∧
    (exportMesh win edited).err = none := by
  decide +kernel

end

end Bf2
