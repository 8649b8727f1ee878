import Verif.OldByteLemmas
import Verif.Props.Bytes
import Verif.Props.OldSize

/-! # C175: which bytes of the file an edit of the deprecated module changes -/

namespace Bf2

theorem vert_get {F : Type} {vs c : Nat} (l : List F) (i : Nat) (hc : c < vs) :
    (vert vs l i)[c]? = l[i * vs + c]? := by
  unfold vert
  rw [List.getElem?_take, if_pos hc, List.getElem?_drop]

/-! ## Moving -/

/-- **C175.** The file of a moved mesh is as long as before and differs in the bytes of the positions of
the vertices and of the boxes only; a position is, as binary32, the sum of the old one and the offset. -/
theorem C175_translate {pl : Plat} {vs p : Nat} {m : OldMesh F64} (order : OldOrderly vs m)
    (pos : Float3At m.vertformat m.vattrs 0 p) (d : Vec3 F64) (rest : List F64) {out : Bytes}
    (saved : oldSave pl m = ⟨out, none⟩) :
    ∃ m' out', oldTranslate m (d.x :: d.y :: d.z :: rest) = (m', none) ∧ oldSave pl m' = ⟨out', none⟩ ∧
      SameOutside (m.mask pl (slotOf vs p 3) true) out out' ∧
      ∀ (v c : Nat) (x t : F64), m.vertices[v * vs + (p + c)]? = some x → d.toList[c]? = some t → p + c < vs →
        (out'.drop (m.vertexStart pl + 4 * (v * vs + (p + c)))).take 4 =
          intBytes pl.bigEndian 4 (packF (FArith.add (FArith.add FArith.zero x) t)).toNat := by
  obtain ⟨l, gs, e, h1, h2, h3⟩ := C87_translate_tiled order.packed order.tiled pos order.bounds order.small d rest
  obtain ⟨n, hn, hlen⟩ := order.packed.num
  have hvs := order.packed.table.pos
  have each : ∀ i c, c < vs → l[i * vs + c]? = (movedVert p d (vert vs m.vertices i))[c]? := by
    intro i c hc
    by_cases hi : i < n
    · rw [← h2 i (by omega), vert_get _ _ hc]
    · have : n * vs ≤ i * vs := Nat.mul_le_mul_right _ (by omega)
      rw [List.getElem?_eq_none (by omega), List.getElem?_eq_none]
      unfold movedVert
      rw [List.length_mapIdx]
      unfold vert
      rw [List.length_take, List.length_drop]
      omega
  have hslot : ∀ i, slotOf vs p 3 i = false → l[i]? = m.vertices[i]? := by
    intro i hi
    have hdm : i = i / vs * vs + i % vs := by rw [Nat.mul_comm]; exact (Nat.div_add_mod i vs).symm
    have hc := Nat.mod_lt i hvs
    have := each (i / vs) (i % vs) hc
    rw [← hdm] at this
    rw [this]
    unfold movedVert
    rw [List.getElem?_mapIdx, vert_get _ _ hc, ← hdm]
    unfold slotOf at hi
    have := of_decide_eq_false hi
    simp only [if_neg (show ¬ i % vs = p by omega), if_neg (show ¬ i % vs = p + 1 by omega),
      if_neg (show ¬ i % vs = p + 2 by omega), Option.map_id']
  have hr := order.wf.save_err.1 (by rw [saved])
  have hwf : OldOrderly vs { m with vertices := l, vertsList := false, geoms := gs } :=
    order.grown h1 h3
  obtain ⟨h5, h6⟩ := (grown_boxes h1 hslot h3).bytes order.wf hwf.wf (hr.grown h3) saved
  refine ⟨_, _, e, h5, h6, fun v c x t hx ht hc => ?_⟩
  have hm := each v (p + c) hc
  unfold movedVert at hm
  rw [List.getElem?_mapIdx, vert_get _ _ hc, hx] at hm
  have key := float_bytes pl ({ m with vertices := l, vertsList := false, geoms := gs } : OldMesh F64).shown
    (i := v * vs + (p + c)) (x := FArith.add (FArith.add FArith.zero x) t) (by
      show l[_]? = _
      rw [hm]
      match c, ht with
      | 0, ht => cases ht; simp
      | 1, ht => cases ht; simp
      | 2, ht => cases ht; simp)
  have hs : ({ m with vertices := l, vertsList := false, geoms := gs } : OldMesh F64).shown.vertexStart pl =
      m.vertexStart pl := by
    have := List.Forall₂.length_eq h3
    simp only [] at this
    simp [Mesh.vertexStart, OldMesh.vertexStart, OldMesh.shown, this]
  rw [hs] at key
  exact key

/-! ## Turning -/

/-- **C175.** The file of a turned mesh differs in the bytes of positions, normals, tangents and boxes
only. -/
theorem C175_rotate [Libm F64] {pl : Plat} {vs oP oN oT : Nat} {m : OldMesh F64} (order : OldOrderly vs m)
    (pos : Float3At m.vertformat m.vattrs 0 oP) (normal : Float3At m.vertformat m.vattrs 3 oN)
    (tangent : Float3At m.vertformat m.vattrs 6 oT) (y p r : F64) (rest : List F64)
    (defined : ∀ a ∈ [y, p, r], (Libm.cos (Libm.radians a)).isSome ∧ (Libm.sin (Libm.radians a)).isSome)
    {out : Bytes} (saved : oldSave pl m = ⟨out, none⟩) :
    ∃ m' out', oldRotate m (y :: p :: r :: rest) = (m', none) ∧ oldSave pl m' = ⟨out', none⟩ ∧
      SameOutside (m.mask pl (fun i => slotOf vs oP 3 i || slotOf vs oN 3 i || slotOf vs oT 3 i) true) out out' := by
  obtain ⟨R, h⟩ := C99_one_map y p r rest defined
  obtain ⟨l, gs, e, h1, -, h2, h3⟩ := h vs oP oN oT m order.packed order.tiled pos normal tangent order.bounds order.small
  have hvs := order.packed.table.pos
  have hslot : ∀ i, (slotOf vs oP 3 i || slotOf vs oN 3 i || slotOf vs oT 3 i) = false → l[i]? = m.vertices[i]? := by
    intro i hi
    rw [Bool.or_eq_false_iff, Bool.or_eq_false_iff] at hi
    unfold slotOf at hi
    have g1 := of_decide_eq_false hi.1.1
    have g2 := of_decide_eq_false hi.1.2
    have g3 := of_decide_eq_false hi.2
    have hdm : i = i / vs * vs + i % vs := by rw [Nat.mul_comm]; exact (Nat.div_add_mod i vs).symm
    have := h2 (i / vs) (i % vs) (Nat.mod_lt i hvs) (by
      intro o ho
      simp only [List.mem_cons, List.not_mem_nil, or_false] at ho
      rcases ho with rfl | rfl | rfl <;> omega)
    rwa [← hdm] at this
  have hr := order.wf.save_err.1 (by rw [saved])
  have hwf : OldOrderly vs { m with vertices := l, vertsList := false, geoms := gs } :=
    order.grown h1 h3
  obtain ⟨h5, h6⟩ := (grown_boxes h1 hslot h3).bytes order.wf hwf.wf (hr.grown h3) saved
  exact ⟨_, _, e, h5, h6⟩

/-! ## Bounds, single vertices -/

/-- **C175.** New bounds change the bytes of the boxes only. -/
theorem C175_bounds {pl : Plat} {vs p : Nat} {m : OldMesh F64} (order : OldOrderly vs m)
    (pos : Float3At m.vertformat m.vattrs 0 p) {out : Bytes} (saved : oldSave pl m = ⟨out, none⟩) :
    ∃ m' out', oldUpdateBoundaries m = (m', none) ∧ oldSave pl m' = ⟨out', none⟩ ∧
      SameOutside (m.mask pl (fun _ => false) true) out out' := by
  obtain ⟨gs, e, h3⟩ := C89_bounds_grow order.packed pos order.bounds
    fun a ha => ⟨(order.tiled.exist a ha).1, (order.tiled.exist a ha).2.1⟩
  have hr := order.wf.save_err.1 (by rw [saved])
  have h3' : BoundsGrown vs p { m with vertices := m.vertices, vertsList := m.vertsList } gs := h3
  have hg := (order.grown rfl h3').wf
  obtain ⟨h5, h6⟩ := (grown_boxes (slot := fun _ => false) rfl (fun _ _ => rfl) h3').bytes order.wf hg
    (hr.grown h3') saved
  exact ⟨_, _, e, h5, h6⟩

/-- **C175.** `edit_vertex` changes the bytes of the floats it is given only. -/
theorem C175_edit_vertex {pl : Plat} {vs o : Nat} {m : OldMesh F64} {u : Int} {i : Nat} {data : List F64}
    (wf : OldWF m) (table : PackedTable vs m.vertformat m.vertstride m.vattrs)
    (editable : ∀ a ∈ m.vattrs, EditableAttr a) (usage : UsageAt m.vertformat m.vattrs u o)
    (small : o ≤ 2 ^ 53) (vertsList : m.vertsList = true) (exist : (i : Int) < m.vertnum)
    (fits : i * vs + o + data.length ≤ m.vertices.length) {out : Bytes} (saved : oldSave pl m = ⟨out, none⟩) :
    ∃ m' out', editVertex m i u data = (m', none) ∧ oldSave pl m' = ⟨out', none⟩ ∧
      SameOutside (m.mask pl (fun k => decide (i * vs + o ≤ k ∧ k < i * vs + o + data.length)) false) out out' ∧
      ∀ (c : Nat) (x : F64), data[c]? = some x →
        (out'.drop (m.vertexStart pl + 4 * (i * vs + o + c))).take 4 = intBytes pl.bigEndian 4 (packF x).toNat := by
  have e := C97_edit_vertex table editable usage small vertsList exist fits
  have hlen : (overwritten m.vertices (i * vs + o) data).length = m.vertices.length := by
    unfold overwritten
    simp only [List.length_append, List.length_take, List.length_drop]
    omega
  have hpre : (m.vertices.take (i * vs + o)).length = i * vs + o := by rw [List.length_take]; omega
  have hb : OldBoxes (fun k => decide (i * vs + o ≤ k ∧ k < i * vs + o + data.length)) false m
      { m with vertices := overwritten m.vertices (i * vs + o) data } := by
    refine ⟨rfl, hlen, fun k hk => ?_, List.forall₂_same.2 fun _ _ => ⟨rfl, List.forall₂_same.2 fun _ _ =>
      ⟨rfl, fun _ => rfl, List.forall₂_same.2 fun _ _ => ⟨rfl, fun _ => rfl⟩⟩⟩⟩
    have hk := of_decide_eq_false hk
    show (overwritten _ _ _)[k]? = _
    unfold overwritten
    by_cases h1 : k < i * vs + o
    · rw [List.append_assoc, List.getElem?_append_left (by omega), List.getElem?_take, if_pos h1]
    · rw [List.getElem?_append_right (by rw [List.length_append, hpre]; omega), List.getElem?_drop,
        List.length_append, hpre]
      congr 1
      omega
  have hr := wf.save_err.1 (by rw [saved])
  have wf' : OldWF { m with vertices := overwritten m.vertices (i * vs + o) data } :=
    ⟨wf.geoms, wf.lods, wf.lod, wf.vattrs, wf.vertformat, by simp only [hlen]; exact wf.vertices,
      by simp only [hlen]; exact wf.not_one, wf.index, wf.u2⟩
  have hr' : OldInRange pl { m with vertices := overwritten m.vertices (i * vs + o) data } :=
    ⟨hr.head_u1, hr.version, hr.head_u3, hr.head_u4, hr.head_u5, hr.u1, hr.geomnum, hr.lodnum, hr.vertattribnum,
      hr.vattrs, hr.vertformat, hr.vertstride, hr.vertnum, hr.indexnum, hr.index, hr.u2, hr.lods⟩
  obtain ⟨h5, h6⟩ := hb.bytes wf wf' hr' saved
  refine ⟨_, _, e, h5, h6, fun c x hx => ?_⟩
  have hc := (List.getElem?_eq_some_iff.1 hx).1
  have key := float_bytes pl ({ m with vertices := overwritten m.vertices (i * vs + o) data } : OldMesh F64).shown
    (i := i * vs + o + c) (x := x) (by
      show (overwritten _ _ _)[_]? = _
      unfold overwritten
      rw [List.append_assoc, List.getElem?_append_right (by omega), hpre, List.getElem?_append_left (by omega)]
      rw [← hx]
      congr 1
      omega)
  have hs : ({ m with vertices := overwritten m.vertices (i * vs + o) data } : OldMesh F64).shown.vertexStart pl =
      m.vertexStart pl := by
    simp [Mesh.vertexStart, OldMesh.vertexStart, OldMesh.shown]
  rw [hs] at key
  exact key

/-! ## Renaming -/

/-- **C175.** A new name for a map: the file is the same before the name and behind it. -/
theorem C175_rename {pl : Plat} {vs : Nat} {m : OldMesh F64} {gi li ai qi : Int} {i j k q : Nat} {g : OldGeom F64}
    {l : OldLod F64} {a : Mat F64} {old : Bytes} {path : List Nat} (order : OldOrderly vs m)
    (ascii : ∀ c ∈ path, c < 128) (short : IsLong pl path.length)
    (hi : Names m.geoms.length gi i) (hg : m.geoms[i]? = some g)
    (hj : Names g.lods.length li j) (hl : g.lods[j]? = some l)
    (hk : Names l.materials.length ai k) (ha : l.materials[k]? = some a)
    (hq : Names a.maps.length qi q) (hold : a.maps[q]? = some old) {out : Bytes}
    (saved : oldSave pl m = ⟨out, none⟩) :
    ∃ m' pre post, renameTexture m gi li ai qi path = (m', none) ∧
      out = pre ++ nameBytes pl old ++ post ∧
      oldSave pl m' = ⟨pre ++ nameBytes pl (path.map fun c => UInt8.ofNat c) ++ post, none⟩ := by
  have e := C98_rename_texture ascii hi hg hj hl hk ha hq
  have hr := order.wf.save_err.1 (by rw [saved])
  have ho := (order.rename gi li ai qi path).1.wf
  rw [e] at ho
  simp only [] at ho
  have hr' := hr.renamed (path := path.map fun c => UInt8.ofNat c) (by rw [List.length_map]; exact short)
    hg hl ha (q := q)
  have e1 := oldSave_layout order.wf hr
  rw [saved] at e1
  cases e1
  have e2 := oldSave_layout ho hr'
  obtain ⟨pre, post, h1, h2⟩ := renamed_text pl m (path.map fun c => UInt8.ofNat c) hg hl ha hold
  exact ⟨_, pre, post, e, h1, by rw [e2, h2]⟩

/-! ## Cases -/

/-- Which places differ. -/
def unequalAt (a b : Bytes) : List Nat :=
  ((a.zip b).zipIdx.filter fun p => p.1.1 != p.1.2).map (·.2)

/-- The box moved up: how many bytes may change, how many do, and how many of them where they may not. -/
def movedBoxBytes : Option Err × Nat × Nat × Nat :=
  match oldSave win staticBox, oldSave win (oldTranslate staticBox [hf 0, hf 4, hf 0]).1,
    staticBox.mask win (slotOf 12 0 3) true with
  | ⟨out, _⟩, ⟨out', e⟩, mask => (e, mask.countP id, (unequalAt out out').length,
      ((mask.zip (out.zip out')).countP fun p => !p.1 && p.2.1 != p.2.2))

/-- 288 bytes of positions and 48 of boxes. -/
example : movedBoxBytes = (none, 288 + 48, 40, 0) := by decide +kernel

/-- The hypotheses hold of the box. -/
example : OldOrderly 12 staticBox ∧ Float3At staticBox.vertformat staticBox.vattrs 0 0 ∧
    Float3At staticBox.vertformat staticBox.vattrs 3 3 ∧ Float3At staticBox.vertformat staticBox.vattrs 6 9 ∧
    (oldSave win staticBox).err = none ∧ staticBox.mats.map (fun a => a.maps.length) = [1] := by
  refine ⟨staticBox_orderly, ?_, ?_, ?_, by decide +kernel, by decide +kernel⟩
  · unfold Float3At; decide +kernel
  · unfold Float3At; decide +kernel
  · unfold Float3At; decide +kernel

/-- One vertex of the box edited. -/
def editedBoxBytes : Option Err × List Nat :=
  match oldSave win staticBox, oldSave win (editVertex { staticBox with vertsList := true } 23 5 [hf 1, hf 1]).1 with
  | ⟨out, _⟩, ⟨out', e⟩ => (e, unequalAt out out')

example : editedBoxBytes = (none, [1219, 1223]) := by decide +kernel

example : staticBox.vertexStart win + 4 * (23 * 12 + 7) = 1217 := by decide +kernel

/-- Its map renamed: the name is at 1446, with four bytes of length, and was eleven letters long. -/
def renamedBoxBytes : Option Err × Nat × Bool × Bool :=
  match oldSave win staticBox, oldSave win (renameTexture staticBox 0 0 0 (-1) [97]).1 with
  | ⟨out, _⟩, ⟨out', e⟩ => (e, out.length - out'.length, out.take 1446 == out'.take 1446, out.drop 1461 == out'.drop 1451)

example : renamedBoxBytes = (none, 10, true, true) := by decide +kernel

end Bf2
