import Verif.FrameLemmas
import Verif.Props.Shared
import Verif.Props.Rotate

/-!
# C145: what no call of an editing method touches

Any calls in any order, raising or not, with any arguments, on any loaded mesh; an order may name a geom
twice, so that the mesh holds one object in two places.
-/

namespace Bf2

variable {F : Type} [FArith F] [Libm F]

/-- The mesh after the calls. -/
def afterCalls (m : Mesh F) (cs : List (EditCall F)) : Mesh F :=
  (runCalls EditCall.runShared (Shared.loaded m) cs).1.look

omit [Libm F] in
theorem keeps_info (c : EditCall F) : Keeps Geom.info c :=
  ⟨fun _ m u g => (bound_info m u g).1, fun _ vs m s g => (reorder_info vs m s g).1,
    fun _ m o s g og => (merge_info m o s g og).1, fun _ m s g => (mergeSelf_info m s g).1⟩

/-- **C145.** Whatever is called: kind, head, format of the vertices and the unnamed numbers stay, the number
of geoms stays, and every geom there is afterwards is one that was loaded, with all its lods, bones, nodes,
materials, texture names and counts of lods, materials and maps. -/
theorem C145_kept (m : Mesh F) (cs : List (EditCall F)) :
    SameFormat m (afterCalls m cs) ∧ (afterCalls m cs).geoms.length = m.geoms.length ∧
      ∀ g' ∈ (afterCalls m cs).geoms, ∃ g ∈ m.geoms, g'.info = g.info := by
  have h := calls_seen (p := Geom.info) m fun c (_ : c ∈ cs) => keeps_info c
  obtain ⟨-, -, -, -, -, h6, -⟩ :=
    runCalls_frame (fun c (_ : c ∈ cs) => keeps_info c) (Shared.loaded m) (loaded_valid m)
  exact ⟨⟨h6.kind, h6.head, h6.geomnum, h6.vertattribnum, h6.vattrs, h6.vertformat, h6.vertstride, h6.u1,
    h6.u2⟩, h.1, h.2.1⟩

/-- **C145.** Unless `change_geoms_order` is called, each geom also keeps its place. -/
theorem C145_in_place (m : Mesh F) (cs : List (EditCall F)) (stay : ∀ c ∈ cs, ¬ c.reorders) :
    (afterCalls m cs).geoms.map Geom.info = m.geoms.map Geom.info :=
  (calls_seen (p := Geom.info) m fun c (_ : c ∈ cs) => keeps_info c).2.2 stay

/-- **C145.** Only `merge` changes how many vertices and indices the mesh and its materials say they have. -/
theorem C145_amounts (m : Mesh F) (cs : List (EditCall F)) (unmerged : ∀ c ∈ cs, ¬ c.merges) :
    (afterCalls m cs).vertnum = m.vertnum ∧ (afterCalls m cs).indexnum = m.indexnum ∧
      ∀ g' ∈ (afterCalls m cs).geoms, ∃ g ∈ m.geoms, g'.info = g.info ∧ g'.amounts = g.amounts := by
  have k : ∀ c ∈ cs, Keeps (fun g : Geom F => (g.info, g.amounts)) c := fun c hc =>
    ⟨fun _ m u g => Prod.ext (bound_info m u g).1 (bound_info m u g).2.1,
      fun _ vs m s g => Prod.ext (reorder_info vs m s g).1 (reorder_info vs m s g).2.1,
      fun h => absurd h (unmerged c hc), fun h => absurd h (unmerged c hc)⟩
  obtain ⟨-, -, -, -, -, -, h7, -⟩ := runCalls_frame k (Shared.loaded m) (loaded_valid m)
  refine ⟨(h7 unmerged).1, (h7 unmerged).2, fun g' hg => ?_⟩
  obtain ⟨g, hg, h⟩ := (calls_seen m k).2.1 g' hg
  exact ⟨g, hg, congrArg Prod.fst h, congrArg Prod.snd h⟩

/-- **C145.** Only `merge` and `change_geoms_order` change the indices and the ranges of materials. -/
theorem C145_places (m : Mesh F) (cs : List (EditCall F)) (unmerged : ∀ c ∈ cs, ¬ c.merges ∧ ¬ c.reorders) :
    (afterCalls m cs).index = m.index ∧
      (afterCalls m cs).geoms.map (fun g => (g.info, g.amounts, g.places)) =
        m.geoms.map fun g => (g.info, g.amounts, g.places) := by
  have k : ∀ c ∈ cs, Keeps (fun g : Geom F => (g.info, g.amounts, g.places)) c := fun c hc =>
    ⟨fun _ m u g => Prod.ext (bound_info m u g).1 (Prod.ext (bound_info m u g).2.1 (bound_info m u g).2.2),
      fun h => absurd h (unmerged c hc).2, fun h => absurd h (unmerged c hc).1,
      fun h => absurd h (unmerged c hc).1⟩
  obtain ⟨-, -, -, -, -, -, -, h8, -⟩ := runCalls_frame k (Shared.loaded m) (loaded_valid m)
  exact ⟨h8 unmerged, (calls_seen m k).2.2 fun c hc => (unmerged c hc).2⟩

/-- **C145.** Only `update_boundaries` changes boxes, and `get_lod_center_offset` when it calls that. -/
theorem C145_boxes (m : Mesh F) (cs : List (EditCall F)) (unbound : ∀ c ∈ cs, ¬ c.bounds) :
    (∀ g' ∈ (afterCalls m cs).geoms, ∃ g ∈ m.geoms, g'.info = g.info ∧ g'.boxes = g.boxes) ∧
      ((∀ c ∈ cs, ¬ c.reorders) → (afterCalls m cs).geoms.map Geom.boxes = m.geoms.map Geom.boxes) := by
  have k : ∀ c ∈ cs, Keeps (fun g : Geom F => (g.info, g.boxes)) c := fun c hc =>
    ⟨fun h => absurd h (unbound c hc),
      fun _ vs m s g => Prod.ext (reorder_info vs m s g).1 (reorder_info vs m s g).2.2,
      fun _ m o s g og => Prod.ext (merge_info m o s g og).1 (merge_info m o s g og).2,
      fun _ m s g => Prod.ext (mergeSelf_info m s g).1 (mergeSelf_info m s g).2⟩
  refine ⟨fun g' hg => ?_, fun h => ?_⟩
  · obtain ⟨g, hg, h⟩ := (calls_seen m k).2.1 g' hg
    exact ⟨g, hg, congrArg Prod.fst h, congrArg Prod.snd h⟩
  · have := congrArg (List.map Prod.snd) ((calls_seen m k).2.2 h)
    rw [List.map_map, List.map_map] at this
    exact this

/-- **C145.** `update_boundaries` and `get_lod_center_offset` change boxes only. -/
theorem C145_vertices (m : Mesh F) (cs : List (EditCall F))
    (unmoved : ∀ c ∈ cs, ¬ c.moves ∧ ¬ c.merges ∧ ¬ c.reorders) :
    ∃ gs, afterCalls m cs = { m with geoms := gs } ∧
      gs.map (fun g => (g.info, g.amounts, g.places)) = m.geoms.map fun g => (g.info, g.amounts, g.places) := by
  have h := C145_kept m cs
  obtain ⟨hi, hp⟩ := C145_places m cs fun c hc => (unmoved c hc).2
  obtain ⟨h1, h2, -⟩ := C145_amounts m cs fun c hc => (unmoved c hc).2.1
  obtain ⟨-, -, -, -, -, -, -, -, h9⟩ :=
    runCalls_frame (fun c (_ : c ∈ cs) => keeps_info c) (Shared.loaded m) (loaded_valid m)
  have hv : (afterCalls m cs).vertices = m.vertices := h9 unmoved
  obtain ⟨⟨k1, k2, k3, k4, k5, k6, k7, k8, k9⟩, -⟩ := h
  refine ⟨(afterCalls m cs).geoms, ?_, hp⟩
  generalize afterCalls m cs = m' at *
  obtain ⟨a1, a2, a3, a4, a5, a6, a7, a8, a9, a10, a11, a12, a13, a14⟩ := m'
  simp only at *
  subst k1 k2 k3 k4 k5 k6 k7 k8 k9 hi h1 h2 hv
  rfl

/-- **C145.** What a call leaves of the other mesh that is merged in: nothing but vertices and indices.  A
name that no material of the loaded mesh has is in no material afterwards. -/
theorem C145_names (m : Mesh F) (cs : List (EditCall F)) (name : Bytes)
    (new : ∀ a ∈ m.mats, name ∉ a.fxfile :: a.technique :: a.maps) :
    ∀ a ∈ (afterCalls m cs).mats, name ∉ a.fxfile :: a.technique :: a.maps := by
  intro a ha
  obtain ⟨g', hg', ha⟩ := List.mem_flatMap.1 ha
  obtain ⟨l', hl', ha⟩ := List.mem_flatMap.1 ha
  obtain ⟨g, hg, he⟩ := (C145_kept m cs).2.2 g' hg'
  have h1 : l'.info ∈ g'.lods.map Lod.info := List.mem_map_of_mem hl'
  rw [show g'.lods.map Lod.info = g.lods.map Lod.info from congrArg Prod.snd he] at h1
  obtain ⟨l, hl, hle⟩ := List.mem_map.1 h1
  have h2 : a.info ∈ l'.materials.map Mat.info := List.mem_map_of_mem ha
  rw [show l'.materials.map Mat.info = l.materials.map Mat.info from
    (congrArg LodInfo.materials hle).symm] at h2
  obtain ⟨b, hb, hbe⟩ := List.mem_map.1 h2
  have := new b (List.mem_flatMap.2 ⟨g, hg, List.mem_flatMap.2 ⟨l, hl, hb⟩⟩)
  rw [← show b.fxfile = a.fxfile from congrArg MatInfo.fxfile hbe,
    ← show b.technique = a.technique from congrArg MatInfo.technique hbe,
    ← show b.maps = a.maps from congrArg MatInfo.maps hbe]
  exact this

/-- Two geoms with one vertex each.  Geom 1 is put in both places, another mesh is merged in, an order with a
bad id and an offset of four numbers raise, and the boxes are updated: everything but what C145 names has
changed. -/
example :
    let _ := noSine
    let m := pairOf (flt 1) (flt 7) (flt 8)
    let cs := [.reorder [1, 1], .merge (pairOf (flt 1) (flt 20) (flt 30)), .reorder [0, 5],
      .translate [flt 1, flt 1, flt 1, flt 1], .center 0 0 true]
    (runCalls EditCall.runShared (Shared.loaded m) cs).2.map Except.toBool = [true, true, false, false, true] ∧
      (afterCalls m cs).geoms.length = 2 ∧ (afterCalls m cs).vertices ≠ m.vertices ∧
      (afterCalls m cs).index ≠ m.index ∧ (afterCalls m cs).vertnum ≠ m.vertnum ∧
      (afterCalls m cs).geoms.map Geom.amounts ≠ m.geoms.map Geom.amounts ∧
      (afterCalls m cs).geoms.map Geom.places ≠ m.geoms.map Geom.places ∧
      (afterCalls m cs).geoms.map Geom.boxes ≠ m.geoms.map Geom.boxes ∧
      (afterCalls m cs).geoms.map Geom.info = m.geoms.map Geom.info := by
  refine ⟨by decide +kernel, by decide +kernel, by decide +kernel, by decide +kernel, by decide +kernel,
    by decide +kernel, by decide +kernel, fun h => ?_, by decide +kernel⟩
  exact absurd (congrArg (List.map (List.map fun b => b.2.1)) h) (by decide +kernel)

end Bf2
