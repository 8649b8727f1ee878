import Verif.ByteLemmas
import Verif.Props.Size

/-! # C158: which bytes of the file an edit changes -/

namespace Bf2

/-- Float number `i` of the vertex block is one of the `n` floats from `o` on of its vertex. -/
def slotOf (vs o n i : Nat) : Bool := decide (o ≤ i % vs ∧ i % vs < o + n)

/-- Float number `i` belongs to a position, normal or tangent of its vertex (of three floats each). -/
def VectorSlot (vs : Nat) (m : Mesh F64) (i : Nat) : Prop :=
  ∃ a ∈ m.vattrs, VectorAttr a ∧ ∃ o, StartsAt m.vertformat a o ∧ o ≤ i % vs ∧ i % vs < o + 3

/-- Exporting a mesh that differs from another one in floats only. -/
theorem export_box {pl : Plat} {slot : Nat → Bool} {box : Bool} {m m' : Mesh F64} (wf : MeshWF m)
    (wf' : MeshWF m') (h : MeshBox slot box m m') {out : Bytes} (saved : exportMesh pl m = ⟨out, none⟩) :
    ∃ out', exportMesh pl m' = ⟨out', none⟩ ∧ SameOutside (m.mask pl slot box) out out' ∧
      out' = layout pl (m'.map packF).items := by
  obtain ⟨⟨ix, hix⟩, hfit, ho⟩ := (C58_export_writes_layout pl m wf out).1 saved
  have hb := (h.map packF).bytes pl (wf.map packF) (wf'.map packF)
  rw [Mesh.mask_map, ← ho] at hb
  have hix' : m'.index = .many ix := by rw [h.fields]; exact hix
  have hr : (exportMesh pl m').err = none :=
    (exportMesh_err wf' hix').2 (h.inRange pl ((exportMesh_err wf hix).1 (by rw [saved])))
  have he : exportMesh pl m' = ⟨(exportMesh pl m').bytes, none⟩ := by rw [← hr]
  have hl := ((C58_export_writes_layout pl m' wf' _).1 he).2.2
  rw [hl] at he
  exact ⟨_, he, hb, rfl⟩

/-- The four bytes of a float of the vertex block. -/
theorem float_bytes (pl : Plat) (m : Mesh F64) {i : Nat} {x : F64} (h : m.vertices[i]? = some x) :
    ((layout pl (m.map packF).items).drop (m.vertexStart pl + 4 * i)).take 4 =
      intBytes pl.bigEndian 4 (packF x).toNat := by
  have hs : (layout pl (m.map packF).preamble.items).length = m.vertexStart pl := by
    rw [preamble_length]; simp [Mesh.vertexStart, Mesh.map]
  rw [items_split, List.append_assoc, List.append_assoc, List.append_assoc, ← List.drop_drop,
    List.drop_left' hs]
  have hv : (m.map packF).vertices = m.vertices.map packF := rfl
  rw [hv]
  obtain ⟨u, w, hu, hi⟩ : ∃ u w, m.vertices = u ++ x :: w ∧ u.length = i := by
    obtain ⟨hlt, rfl⟩ := List.getElem?_eq_some_iff.1 h
    exact ⟨m.vertices.take i, m.vertices.drop (i + 1), by simp, by simp; omega⟩
  rw [hu, List.map_append, List.map_append, layout_append, List.append_assoc]
  have hl : (layout pl ((u.map packF).map Item.word)).length = 4 * i := by
    rw [layout_words, List.length_map, hi]
  rw [List.drop_left' hl, List.map_cons, List.map_cons, layout_cons, List.append_assoc,
    List.take_append_of_le_length (by simp [Item.bytes, intBytes_length])]
  exact List.take_of_length_le (by simp [Item.bytes, intBytes_length])

/-- What moving does to the floats, by their number in the block. -/
theorem moved_floats {vs : Nat} {m : Mesh F64} {a : VAttr} {o : Nat} {d : List F64}
    (tiled : TiledVerts vs m) (first : FirstPosition m.vattrs a) (start : StartsAt m.vertformat a o)
    (fits : o + d.length ≤ vs) : ∃ l : List F64, translate m d = ({ m with vertices := l }, none) ∧
      l.length = m.vertices.length ∧ ∀ i, slotOf vs o d.length i = false → l[i]? = m.vertices[i]? := by
  obtain ⟨l, ht, hlen, hl⟩ := C22_translate_moves_positions_only tiled first start fits
  refine ⟨l, ht, hlen, fun i hi => ?_⟩
  have hdm : i = i / vs * vs + i % vs := by rw [Nat.mul_comm]; exact (Nat.div_add_mod i vs).symm
  rcases hx : m.vertices[i]? with _ | x
  · rw [List.getElem?_eq_none_iff] at hx ⊢
    omega
  · have := (hl (i / vs) (i % vs) x (Nat.mod_lt i tiled.pos) (by rw [← hdm]; exact hx)).2 (by
      unfold slotOf at hi
      have := of_decide_eq_false hi
      omega)
    rwa [← hdm] at this

theorem turned_floats {vs : Nat} {m : Mesh F64} [Libm F64] (tiled : TiledVerts vs m)
    (float3 : Float3Vectors vs m) (rotation : List F64) (ok : (rotate m rotation).2 = none)
    (slot : Nat → Bool) (right : ∀ i, slot i = true ↔ VectorSlot vs m i) :
    ∃ l : List F64, rotate m rotation = ({ m with vertices := l }, none) ∧
      l.length = m.vertices.length ∧ ∀ i, slot i = false → l[i]? = m.vertices[i]? := by
  obtain ⟨l, ht, hlen, hl⟩ := C26_rotate_vectors_only tiled float3 rotation ok
  refine ⟨l, ht, hlen, fun i hi => ?_⟩
  have hdm : i = i / vs * vs + i % vs := by rw [Nat.mul_comm]; exact (Nat.div_add_mod i vs).symm
  have := hl (i / vs) (i % vs) (Nat.mod_lt i tiled.pos) (fun a ha hv o ho => by
    by_contra hn
    have : slot i = true := (right i).2 ⟨a, ha, hv, o, ho, by omega, by omega⟩
    rw [hi] at this
    cases this)
  rwa [← hdm] at this

theorem box_of_floats {m : Mesh F64} {l : List F64} {slot : Nat → Bool}
    (hlen : l.length = m.vertices.length) (h : ∀ i, slot i = false → l[i]? = m.vertices[i]?) :
    MeshBox slot false m { m with vertices := l } :=
  ⟨rfl, hlen, h, List.forall₂_same.2 fun g _ => .refl _ g⟩

theorem bounds_bytes {pl : Plat} {m m' : Mesh F64} {l : List F64} {slot : Nat → Bool} {out : Bytes}
    (wf : MeshWF m) (hlen : l.length = m.vertices.length)
    (h : ∀ i, slot i = false → l[i]? = m.vertices[i]?) (saved : exportMesh pl m = ⟨out, none⟩)
    (bounds : (updateBoundaries { m with vertices := l }).1 = m') :
    ∃ out', exportMesh pl m' = ⟨out', none⟩ ∧ SameOutside (m.mask pl slot true) out out' := by
  obtain ⟨gs, hgs, hR⟩ := update_bounded { m with vertices := l }
  have hwf := update_wf bounds ((box_of_floats hlen h).wf wf)
  rw [bounds] at hgs
  have hbox : MeshBox slot true m m' := by
    rw [hgs]
    exact ⟨rfl, hlen, h, hR.imp fun _ _ h => h.box⟩
  obtain ⟨out', h1, h2, -⟩ := export_box wf hwf hbox saved
  exact ⟨out', h1, h2⟩

/-! ## Moving -/

/-- **C158.** Saving a moved mesh without new bounds changes only the bytes of the floats that were
moved: four for each, and these are the ones of the sum as binary32. -/
theorem C158_translate {pl : Plat} {vs : Nat} {m : Mesh F64} {a : VAttr} {o : Nat} {d : List F64}
    {out : Bytes} (wf : MeshWF m) (tiled : TiledVerts vs m) (first : FirstPosition m.vattrs a)
    (start : StartsAt m.vertformat a o) (fits : o + d.length ≤ vs)
    (saved : exportMesh pl m = ⟨out, none⟩) :
    ∃ out', exportMesh pl (translate m d).1 = ⟨out', none⟩ ∧
      SameOutside (m.mask pl (slotOf vs o d.length) false) out out' ∧
      ∀ (v c : Nat) (x t : F64), m.vertices[v * vs + (o + c)]? = some x → d[c]? = some t →
        (out'.drop (m.vertexStart pl + 4 * (v * vs + (o + c)))).take 4 =
          intBytes pl.bigEndian 4 (packF (FArith.add x t)).toNat := by
  obtain ⟨l, ht, hlen, hfl⟩ := moved_floats tiled first start fits
  have hbox : MeshBox (slotOf vs o d.length) false m (translate m d).1 := by
    rw [ht]
    exact box_of_floats hlen hfl
  obtain ⟨out', h1, h2, h3⟩ := export_box wf (hbox.wf wf) hbox saved
  refine ⟨out', h1, h2, fun v c x t hx hd => ?_⟩
  have hc : o + c < vs := by
    have := (List.getElem?_eq_some_iff.1 hd).1
    omega
  have hs : (translate m d).1.vertexStart pl = m.vertexStart pl := by rw [ht]; rfl
  rw [h3, ← hs]
  refine float_bytes pl _ ?_
  obtain ⟨l', ht', -, hl⟩ := C22_translate_moves_positions_only tiled first start fits
  rw [ht']
  exact (hl v (o + c) x hc hx).1 t (by omega) (by rw [Nat.add_sub_cancel_left]; exact hd)

/-- **C158.** With new bounds also those of the boxes, and no others: no integer, no name, no matrix,
no index and no other vertex attribute. -/
theorem C158_translate_bounds {pl : Plat} {vs : Nat} {m m' : Mesh F64} {a : VAttr} {o : Nat}
    {d : List F64} {out : Bytes} (wf : MeshWF m) (tiled : TiledVerts vs m)
    (first : FirstPosition m.vattrs a) (start : StartsAt m.vertformat a o) (fits : o + d.length ≤ vs)
    (saved : exportMesh pl m = ⟨out, none⟩) (bounds : (updateBoundaries (translate m d).1).1 = m') :
    ∃ out', exportMesh pl m' = ⟨out', none⟩ ∧
      SameOutside (m.mask pl (slotOf vs o d.length) true) out out' := by
  obtain ⟨l, ht, hlen, hfl⟩ := moved_floats tiled first start fits
  rw [ht] at bounds
  exact bounds_bytes wf hlen hfl saved bounds

/-- **C158.** From file to file: moving the mesh of a file without signalling NaNs and saving it leaves
a file of the same length that differs from it only in positions and boxes. -/
theorem C158_translate_file {pl : Plat} {k : Kind} {vs : Nat} {file : Bytes} {m m' : Mesh F64} {a : VAttr}
    {o : Nat} {d : List F64} (loaded : load pl k file = .ok m) (many : m.indexnum ≠ 1)
    (quiet : NoSignalling pl k file) (tiled : TiledVerts vs m) (first : FirstPosition m.vattrs a)
    (start : StartsAt m.vertformat a o) (fits : o + d.length ≤ vs)
    (bounds : (updateBoundaries (translate m d).1).1 = m') :
    ∃ out', exportMesh pl m' = ⟨out', none⟩ ∧ out'.length = file.length ∧
      SameOutside (m.mask pl (slotOf vs o d.length) true) file out' := by
  obtain ⟨out', h1, h2⟩ := C158_translate_bounds (C06_loaded_wf pl k file m loaded).1 tiled first start fits
    (C01_unmodified_export_identical pl k file m loaded many quiet) bounds
  exact ⟨out', h1, by rw [h2.left, h2.right], h2⟩

/-- Two geoms with positions, normals and texture coordinates. -/
def byteMesh : Mesh F64 := twoGeoms ((List.range 24).map flt)

example :
    let r := exportMesh win byteMesh
    Orderly 8 byteMesh ∧ FirstPosition byteMesh.vattrs ⟨0, 0, 2, 0⟩ ∧
    StartsAt byteMesh.vertformat ⟨0, 0, 2, 0⟩ 0 ∧ 0 + 3 ≤ 8 ∧ r.err = none ∧ byteMesh.vertexStart win = 81 ∧
    (byteMesh.mask win (slotOf 8 0 3) false).countP id = 36 ∧
    (byteMesh.mask win (slotOf 8 0 3) true).countP id = 84 := by
  refine ⟨twoGeoms_orderly _ rfl, ⟨[], _, rfl, by decide, by simp⟩, by decide +kernel, by decide,
    by decide +kernel, by decide +kernel, by decide +kernel, by decide +kernel⟩

/-! ## Turning -/

/-- **C158.** Saving a rotated mesh changes only the bytes of positions, normals and tangents, and of
the boxes if they are updated. -/
theorem C158_rotate [Libm F64] {pl : Plat} {vs : Nat} {m m' : Mesh F64} {rotation : List F64}
    {out : Bytes} (wf : MeshWF m) (tiled : TiledVerts vs m) (float3 : Float3Vectors vs m)
    (ok : (rotate m rotation).2 = none) (slot : Nat → Bool)
    (right : ∀ i, slot i = true ↔ VectorSlot vs m i) (saved : exportMesh pl m = ⟨out, none⟩)
    (bounds : (updateBoundaries (rotate m rotation).1).1 = m') :
    (∃ out', exportMesh pl (rotate m rotation).1 = ⟨out', none⟩ ∧
      SameOutside (m.mask pl slot false) out out') ∧
    ∃ out', exportMesh pl m' = ⟨out', none⟩ ∧ SameOutside (m.mask pl slot true) out out' := by
  obtain ⟨l, ht, hlen, hfl⟩ := turned_floats tiled float3 rotation ok slot right
  rw [ht] at bounds ⊢
  have hbox := box_of_floats hlen hfl
  obtain ⟨out', h1, h2, -⟩ := export_box wf (hbox.wf wf) hbox saved
  exact ⟨⟨out', h1, h2⟩, bounds_bytes wf hlen hfl saved bounds⟩

/-- The first six floats of each vertex of the sample. -/
example : ∀ i, decide (i % 8 < 6) = true ↔ VectorSlot 8 byteMesh i := by
  intro i
  rw [decide_eq_true_iff]
  constructor
  · intro h
    by_cases h3 : i % 8 < 3
    · exact ⟨⟨0, 0, 2, 0⟩, by decide +kernel, by decide, 0, by decide +kernel, by omega, by omega⟩
    · exact ⟨⟨0, 12, 2, 3⟩, by decide +kernel, by decide, 3, by decide +kernel, by omega, by omega⟩
  · rintro ⟨a, ha, hv, o, ⟨-, ho, -⟩, h1, h2⟩
    have hm : byteMesh.vattrs = vecAttrs := rfl
    have hf : byteMesh.vertformat = 4 := rfl
    rw [hf] at ho
    rw [hm] at ha
    simp only [vecAttrs, List.mem_cons, List.not_mem_nil, or_false] at ha
    rcases ha with rfl | rfl | rfl | rfl
    · simp at ho; omega
    · simp at ho; omega
    · exact absurd hv (by decide)
    · exact absurd hv (by decide)

/-! ## Bounds -/

/-- **C158.** Saving an unchanged mesh with new bounds changes only the bytes of the boxes. -/
theorem C158_bounds {pl : Plat} {m m' : Mesh F64} {out : Bytes} (wf : MeshWF m)
    (saved : exportMesh pl m = ⟨out, none⟩) (bounds : (updateBoundaries m).1 = m') :
    ∃ out', exportMesh pl m' = ⟨out', none⟩ ∧ SameOutside (m.mask pl (fun _ => false) true) out out' :=
  bounds_bytes (l := m.vertices) wf rfl (fun _ _ => rfl) saved bounds

example :
    let r := exportMesh win byteMesh
    let r' := exportMesh win (updateBoundaries byteMesh).1
    r.err = none ∧ (byteMesh.mask win (fun _ => false) true).countP id = 48 ∧ r'.err = none := by
  decide +kernel

/-- Boxes that do change. -/
example :
    (exportMesh win (boxed (flt 0) boxedVerts)).bytes ≠
      (exportMesh win (updateBoundaries (boxed (flt 0) boxedVerts)).1).bytes := by decide +kernel

end Bf2
