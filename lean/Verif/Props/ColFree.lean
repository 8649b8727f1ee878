import Verif.ColFreeLemmas
import Verif.Props.ColFormat
import Verif.ColSample

/-! # C177: damage to a collision mesh file that loading does not notice -/

namespace Bf2

local notation "W" => BitVec 32

theorem col_mask_length (pl : Plat) (r : ColFile) : (r.freeMask pl).length = (layout pl r.items).length := by
  rw [← col_mask_of_marks, ← r.marked_items]
  unfold layout
  rw [List.flatMap_map, List.length_flatMap, List.length_flatMap]
  exact congrArg List.sum (List.map_congr_left fun p _ => (mask_length p).symm)

theorem layout_within {pl : Plat} {xs : List Item} {i : Nat} {x : Item} (h : xs[i]? = some x) (rest : Bytes) :
    ((layout pl xs ++ rest).drop (layout pl (xs.take i)).length).take (x.bytes pl).length = x.bytes pl := by
  obtain ⟨hi, rfl⟩ := List.getElem?_eq_some_iff.1 h
  have e : layout pl xs = layout pl (xs.take i) ++ (xs[i].bytes pl ++ layout pl (xs.drop (i + 1))) := by
    conv_lhs => rw [← List.take_append_drop i xs, List.drop_eq_getElem_cons hi]
    unfold layout
    rw [List.flatMap_append, List.flatMap_cons]
  rw [e, List.append_assoc, List.drop_left' rfl, List.append_assoc, List.take_left' rfl]

/-- **C177.** Damage to a collision mesh file keeps it loadable, with the same version, collision types,
counts and lengths, exactly if, up to the end of the mesh, it changes free bytes only. -/
theorem C177_unnoticed_iff {pl : Plat} {a : Bytes} {m : ColMesh F64 ColFace} (loaded : loadCol pl a = .ok m)
    (b : Bytes) :
    SameOutside (m.freeMask pl) (a.take (m.freeMask pl).length) (b.take (m.freeMask pl).length) ↔
      ∃ m' : ColMesh F64 ColFace, loadCol pl b = .ok m' ∧ m'.blank = m.blank := by
  obtain ⟨r, rest, h1, h2, rfl, rfl⟩ := (C59_loads_iff_layout pl a m).1 loaded
  unfold ColMesh.obj
  rw [ColMesh.freeMask_map, ColMesh.blank_map, col_mask_length, List.take_left' rfl, ← col_mask_of_marks]
  constructor
  · intro h
    rw [← r.marked_items] at h
    obtain ⟨ys, e1, e2, e3⟩ := swaps_of_bytes r.marked (fun p hp => h2 _ (by
      rw [← r.marked_items]
      exact List.mem_map_of_mem hp)) h
    rw [r.marked_items] at e3
    obtain ⟨r', rfl, e4⟩ := swaps_colmesh e1
    refine ⟨r'.obj, (C59_loads_iff_layout pl b _).2 ⟨r', b.drop (layout pl r.items).length, ?_, e2, ?_, rfl⟩, ?_⟩
    · rw [← ColMesh.wf_blank, e4, ColMesh.wf_blank]
      exact h1
    · rw [← e3, List.take_append_drop]
    · unfold ColMesh.obj
      rw [ColMesh.blank_map, e4]
  · rintro ⟨m', h3, h4⟩
    obtain ⟨r', rest', -, -, rfl, rfl⟩ := (C59_loads_iff_layout pl b m').1 h3
    unfold ColMesh.obj at h4
    rw [ColMesh.blank_map] at h4
    have h5 := colmesh_swap h4
    have h6 := swaps_bytes (pl := pl) h5
    rw [r.marked_items] at h6
    have h7 : (layout pl r'.items).length = (layout pl r.items).length := by
      rw [h6.right, h6.left]
    rw [List.take_left' h7]
    exact h6

/-- A file with one byte changed: whether it loads, and whether to a mesh of the same counts. -/
def damagedColAt (i : Nat) : Bool × Bool :=
  match loadCol (F := W) win ((layout win triCol.items).modify i (· + 1)) with
  | .ok r => (true, decide (r.blank = triCol.blank))
  | .error _ => (false, false)

/-- 266 of the 330 bytes of a file with two lods of one triangle are free. -/
example : loadCol (F := W) win (layout win triCol.items) = .ok (triCol.map id FileFace.obj) ∧
    (layout win triCol.items).length = 330 ∧ (triCol.freeMask win).countP id = 266 := by
  decide +kernel

/-- A vertex number of a face is free. -/
example : (triCol.freeMask win)[28]? = some true ∧ damagedColAt 28 = (true, true) := by decide +kernel

/-- The number of faces is not; the file with another does not load. -/
example : (triCol.freeMask win)[24]? = some false ∧ damagedColAt 24 = (false, false) := by decide +kernel

/-- Nor are the version and the collision type; the files with the next ones load. -/
example : (triCol.freeMask win)[4]? = some false ∧ damagedColAt 4 = (true, false) ∧
    (triCol.freeMask win)[20]? = some false ∧ damagedColAt 20 = (true, false) := by decide +kernel

/-- A collision type of 256 and more does not load. -/
example : damagedColAt 21 = (false, false) := by decide +kernel

/-- **C177.** Both files begin with the items of a mesh, at the same places; each item of the damaged file
is what its bytes say, and it is as before exactly if its bytes are. -/
theorem C177_items {pl : Plat} {a b : Bytes} {m m' : ColMesh F64 ColFace} (loaded : loadCol pl a = .ok m)
    (loaded' : loadCol pl b = .ok m') (same : m'.blank = m.blank) :
    ∃ (r r' : ColFile) (rest rest' : Bytes), m = r.obj ∧ m' = r'.obj ∧ a = layout pl r.items ++ rest ∧
      b = layout pl r'.items ++ rest' ∧ ∀ (i : Nat) (x : Item), r.items[i]? = some x →
        ∃ y, r'.items[i]? = some y ∧
          (b.drop (layout pl (r.items.take i)).length).take (x.bytes pl).length = y.bytes pl ∧
          (y = x ↔ (b.drop (layout pl (r.items.take i)).length).take (x.bytes pl).length =
            (a.drop (layout pl (r.items.take i)).length).take (x.bytes pl).length) := by
  obtain ⟨r, rest, -, f1, rfl, rfl⟩ := (C59_loads_iff_layout pl a m).1 loaded
  obtain ⟨r', rest', -, f2, rfl, rfl⟩ := (C59_loads_iff_layout pl b m').1 loaded'
  unfold ColMesh.obj at same
  rw [ColMesh.blank_map, ColMesh.blank_map] at same
  refine ⟨r, r', rest, rest', rfl, rfl, rfl, rfl, fun i x item => ?_⟩
  have h : List.Forall₂ (fun x y => y.blank = x.blank) r.items r'.items := by
    rw [← r.marked_items, List.forall₂_map_left_iff]
    exact (colmesh_swap same).imp fun _ _ h => h.blank
  have hi := (List.getElem?_eq_some_iff.1 item).1
  have hi' : i < r'.items.length := by rw [← h.length_eq]; exact hi
  have hy : r'.items[i]? = some r'.items[i] := List.getElem?_eq_getElem hi'
  have hb : r'.items[i].blank = x.blank := by
    have := h.get hi hi'
    rw [← (List.getElem?_eq_some_iff.1 item).2]
    exact this
  have hl := blanks_length (pl := pl) (List.forall₂_take i h)
  have e1 := layout_within (pl := pl) hy rest'
  rw [hl, blank_length hb] at e1
  refine ⟨_, hy, e1, ?_⟩
  rw [e1, layout_within item rest]
  exact ⟨fun h => by rw [h], fun h => bytes_inj (f2 _ (List.mem_of_getElem? hy)) (f1 _ (List.mem_of_getElem? item)) hb h⟩

/-- Item 7 of the sample, the first vertex number of the first face. -/
example : triCol.items[7]? = some (.sshort 0) ∧ (layout win (triCol.items.take 7)).length = 28 ∧
    ((layout win triCol.items).drop 28).take 2 = [0, 0] := by
  decide +kernel

end Bf2
