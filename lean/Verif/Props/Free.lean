import Verif.FreeLemmas
import Verif.Props.Layout
import Verif.Props.OldFormat
import Verif.Sample

/-! # C176: damage to a file that loading does not notice -/

namespace Bf2

local notation "W" => BitVec 32

theorem free_iff {pl : Plat} {k : Kind} {a : Bytes} {r : Mesh W} (loaded : load pl k a = .ok r) (b : Bytes) :
    SameOutside (r.freeMask pl) a b ↔ ∃ r' : Mesh W, load pl k b = .ok r' ∧ r'.blank = r.blank := by
  obtain ⟨h1, h2, h3, rfl⟩ := (C58_loads_iff_layout pl k a r).1 loaded
  rw [← mask_of_marks, ← r.marked_items]
  constructor
  · intro h
    obtain ⟨ys, e1, e2, rfl⟩ := swaps_of_bytes r.marked (fun p hp => h3 _ (by
      rw [← r.marked_items]
      exact List.mem_map_of_mem hp)) h
    obtain ⟨r', rfl, e3⟩ := swaps_mesh e1
    refine ⟨r', (C58_loads_iff_layout pl k _ r').2 ⟨?_, ?_, e2, rfl⟩, e3⟩
    · rw [← Mesh.wf_blank, e3, Mesh.wf_blank]; exact h1
    · rw [← h2]; exact congrArg (fun m : Mesh Unit => m.kind) e3
  · rintro ⟨r', h4, h5⟩
    obtain ⟨-, -, -, rfl⟩ := (C58_loads_iff_layout pl k b r').1 h4
    exact swaps_bytes (mesh_swap h5)

/-- **C176.** Damage to a file keeps it loadable, with the same counts and lengths, exactly if it changes
free bytes only. -/
theorem C176_unnoticed_iff {pl : Plat} {k : Kind} {a : Bytes} {m : Mesh F64} (loaded : load pl k a = .ok m)
    (b : Bytes) :
    SameOutside (m.freeMask pl) a b ↔ ∃ m' : Mesh F64, load pl k b = .ok m' ∧ m'.blank = m.blank := by
  obtain ⟨r, hr, rfl⟩ := load_ok_map.1 loaded
  rw [Mesh.freeMask_map, Mesh.blank_map, free_iff hr]
  constructor
  · rintro ⟨r', h1, h2⟩
    exact ⟨r'.map unpackF, load_ok_map.2 ⟨r', h1, rfl⟩, by rw [Mesh.blank_map, h2]⟩
  · rintro ⟨m', h1, h2⟩
    obtain ⟨r', h3, rfl⟩ := load_ok_map.1 h1
    exact ⟨r', h3, by rwa [Mesh.blank_map] at h2⟩

/-- A file with one byte changed: whether it loads, and whether to a mesh of the same counts and lengths. -/
def damagedAt (i : Nat) : Option (Bool × Bool) :=
  match exportMesh win tiny with
  | ⟨file, none⟩ =>
    some (match load (F := W) win staticKind (file.modify i (· + 1)) with
      | .ok r => (true, decide (r.blank = tiny.blank))
      | .error _ => (false, false))
  | _ => none

/-- 225 of the 281 bytes of a file with one triangle are free. -/
example : load win staticKind (exportMesh win tiny).bytes = .ok tiny ∧
    (exportMesh win tiny).bytes.length = 281 ∧ (tiny.freeMask win).countP id = 225 := by
  decide +kernel

/-- A letter of the name of the shader is free. -/
example : (tiny.freeMask win)[215]? = some true ∧ damagedAt 215 = some (true, true) := by decide +kernel

/-- The number of indices is not; the file with another does not load. -/
example : (tiny.freeMask win)[97]? = some false ∧ damagedAt 97 = some (false, false) := by decide +kernel

/-- Nor is the size of a vertex; the file with 13 bytes instead of 12 loads. -/
example : (tiny.freeMask win)[53]? = some false ∧ damagedAt 53 = some (true, false) := by decide +kernel

/-- **C176.** Each item of the damaged file is what its bytes say; it is as before exactly if its bytes
are. -/
theorem C176_items {pl : Plat} {k : Kind} {a b : Bytes} {r r' : Mesh W} (loaded : load pl k a = .ok r)
    (loaded' : load pl k b = .ok r') (same : r'.blank = r.blank) {i : Nat} {x : Item}
    (item : r.items[i]? = some x) :
    ∃ y, r'.items[i]? = some y ∧
      (b.drop (layout pl (r.items.take i)).length).take (x.bytes pl).length = y.bytes pl ∧
      (y = x ↔ (b.drop (layout pl (r.items.take i)).length).take (x.bytes pl).length =
        (a.drop (layout pl (r.items.take i)).length).take (x.bytes pl).length) := by
  obtain ⟨-, -, f1, rfl⟩ := (C58_loads_iff_layout pl k a r).1 loaded
  obtain ⟨-, -, f2, rfl⟩ := (C58_loads_iff_layout pl k b r').1 loaded'
  have h : List.Forall₂ (fun x y => y.blank = x.blank) r.items r'.items := by
    rw [← r.marked_items, List.forall₂_map_left_iff]
    exact (mesh_swap same).imp fun _ _ h => h.blank
  have hi := (List.getElem?_eq_some_iff.1 item).1
  have hi' : i < r'.items.length := by rw [← h.length_eq]; exact hi
  have hy : r'.items[i]? = some r'.items[i] := List.getElem?_eq_getElem hi'
  have hb : r'.items[i].blank = x.blank := by
    have := h.get hi hi'
    rw [← (List.getElem?_eq_some_iff.1 item).2]
    exact this
  have hl := blanks_length (pl := pl) (List.forall₂_take i h)
  have e1 := layout_at (pl := pl) hy
  rw [hl, blank_length hb] at e1
  refine ⟨_, hy, e1, ?_⟩
  rw [e1, layout_at item]
  exact ⟨fun h => by rw [h], fun h => bytes_inj (f2 _ (List.mem_of_getElem? hy)) (f1 _ (List.mem_of_getElem? item)) hb h⟩

/-- Item 59 of the sample, the name of the shader. -/
example : tiny.items[59]? = some (.text [0x61, 0x62]) ∧ (layout win (tiny.items.take 59)).length = 211 := by
  decide +kernel

/-- **C176.** Damage to the bytes of some floats of the vertex block changes these floats and nothing
else. -/
theorem C176_vertices {pl : Plat} {k : Kind} {a b : Bytes} {m : Mesh F64} {slot : Nat → Bool}
    (loaded : load pl k a = .ok m) (damage : SameOutside (m.mask pl slot false) a b) :
    ∃ l : List F64, load pl k b = .ok { m with vertices := l } ∧ l.length = m.vertices.length ∧
      ∀ i, slot i = false → l[i]? = m.vertices[i]? := by
  obtain ⟨r, hr, rfl⟩ := load_ok_map.1 loaded
  obtain ⟨h1, h2, h3, rfl⟩ := (C58_loads_iff_layout pl k a r).1 hr
  rw [Mesh.mask_map, items_split] at damage
  unfold Mesh.mask at damage
  simp only [List.append_assoc] at damage
  obtain ⟨c1, c', rfl, d1, d'⟩ := damage.split (by rw [preamble_length, List.length_replicate])
  have hw : (layout pl (r.vertices.map .word)).length =
      ((List.range r.vertices.length).flatMap fun i => List.replicate 4 (slot i)).length := by
    have := (slots_same (pl := pl) (slot := slot) (v := r.vertices) (v' := r.vertices) rfl fun _ _ => rfl).left
    exact this
  obtain ⟨c2, c3, rfl, d2, d3⟩ := d'.split hw
  obtain rfl := d1.all_fixed
  rw [List.range_eq_range'] at d2
  obtain ⟨v', rfl, hl, hv⟩ := words_of_slots 0 d2
  obtain rfl := d3.no_mark (by
    intro c hc
    rw [List.mem_append] at hc
    rcases hc with hc | hc
    · exact (List.mem_replicate.1 hc).2
    · exact no_box pl r c hc)
  have hn : load pl k (layout pl ({ r with vertices := v' } : Mesh W).items) = .ok ({ r with vertices := v' } : Mesh W) := by
    refine (C58_loads_iff_layout pl k _ _).2 ⟨?_, h2, ?_, rfl⟩
    · exact ⟨h1.geoms, h1.geom, h1.vattrs, h1.vertformat, by rw [hl]; exact h1.vertices,
        by rw [hl]; exact h1.not_one, h1.index, h1.u2⟩
    · intro i hi
      simp only [Mesh.items, List.mem_append] at hi h3
      rcases hi with (((((hi | hi) | hi) | hi) | hi) | hi) | hi
      · exact h3 i (by tauto)
      · obtain ⟨w, -, rfl⟩ := List.mem_map.1 hi
        trivial
      all_goals exact h3 i (by tauto)
  refine ⟨v'.map unpackF, ?_, by simp [hl, Mesh.map], fun i hi => ?_⟩
  · have := load_ok_map (F := F64).2 ⟨_, hn, rfl⟩
    rw [items_split] at this
    simp only [List.append_assoc] at this
    exact this
  · show (v'.map _)[i]? = (r.vertices.map _)[i]?
    rw [List.getElem?_map, List.getElem?_map, hv i (by rw [Nat.zero_add]; exact hi)]
    rfl

/-- The second coordinate of the first vertex of the sample. -/
example : (tiny.mask win (fun i => i == 1) false).countP id = 4 ∧
    (tiny.mask win (fun i => i == 1) false)[65]? = some true := by decide +kernel

/-- **C176.** The deprecated module notices no more: it loads a file damaged in free bytes, and what
follows it, as the package does, unless the first lod has no material. -/
theorem C176_deprecated {pl : Plat} {k : Kind} {a b suffix : Bytes} {m : Mesh F64}
    (loaded : load pl k a = .ok m) (first : ¬ FirstEmpty m.lods) (damage : SameOutside (m.freeMask pl) a b) :
    ∃ m' : Mesh F64, load pl k b = .ok m' ∧ m'.blank = m.blank ∧
      oldLoad pl k (b ++ suffix) = .ok m'.old := by
  obtain ⟨m', h1, h2⟩ := (C176_unnoticed_iff loaded b).1 damage
  refine ⟨m', h1, h2, C83_loads_the_same pl k b suffix m' h1 fun hf => first ?_⟩
  have e : m'.lods.map (Lod.blank m'.kind) = m.lods.map (Lod.blank m.kind) := by
    have := congrArg (fun m : Mesh Unit => m.geoms.flatMap Geom.lods) h2
    simp only [Mesh.blank, List.flatMap_map] at this
    unfold Mesh.lods
    rw [List.map_flatMap, List.map_flatMap]
    exact this
  obtain ⟨l, hl, hm⟩ := hf
  have e' := congrArg List.head? e
  rw [List.head?_map, List.head?_map, hl] at e'
  obtain ⟨l', hl', hb⟩ := Option.map_eq_some_iff.1 e'.symm
  refine ⟨l', hl', ?_⟩
  have := congrArg (fun l : Lod Unit => l.materials) hb
  simp only [Lod.blank, hm, List.map_nil, List.map_eq_nil_iff] at this
  exact this

example : ¬ FirstEmpty tiny.lods := by decide +kernel

end Bf2
