import Verif.OldSizeLemmas
import Verif.Props.OldRotate
import Verif.Props.OldMerge
import Verif.Props.OldTransform

/-!
# C172: how long the files of the deprecated module are, and how its edits change the length
-/

namespace Bf2

/-- **C172.** A mesh in shape that is in range is saved in as many bytes as its counts say. -/
theorem C172_saved {pl : Plat} {o : OldMesh F64} (wf : OldWF o) (range : OldInRange pl o) :
    ∃ out, oldSave pl o = ⟨out, none⟩ ∧ out.length = o.size pl := by
  obtain ⟨out, h1, h2⟩ := wf.save range
  refine ⟨out, h1, ?_⟩
  rw [C151_loaded h2, Mesh.map_restSize, Mesh.map_dataSize, wf.shown_size]

/-- **C172.** Whatever is in the file after a save that does not raise. -/
theorem C172_any_save {pl : Plat} {o : OldMesh F64} (wf : OldWF o) {out : Bytes}
    (saved : oldSave pl o = ⟨out, none⟩) : out.length = o.size pl := by
  obtain ⟨out', h1, h2⟩ := C172_saved wf ((C103_save_iff pl wf).1 (by rw [saved]))
  rw [saved] at h1
  cases h1
  exact h2

/-- **C172.** What the deprecated module loads has the length of the file. -/
theorem C172_loaded {pl : Plat} {k : Kind} {file : Bytes} {m : Mesh F64} (loaded : load pl k file = .ok m) :
    m.old.size pl = file.length := by
  rw [old_size (C06_loaded_wf pl k file m loaded).1, C151_loaded loaded]

/-- `Box()`: 1 byte, 12 longs, 5 attributes, 288 floats, 36 indices; a geom with its number, a lod of 24 bytes, 2 longs
and a matrix, a material of 11 longs, 28 letters and a box.  Longs may take 4 bytes or 8. -/
example (pl : Plat) : OldWF mockBox ∧ OldInRange pl mockBox ∧ boxAttrs.length = 5 ∧
    mockBox.size pl = 1 + pl.cLong * 12 + 40 + 4 * 288 + 2 * 36 + (pl.cLong + (24 + 2 * pl.cLong + 64) +
      (pl.cLong * 11 + 28 + 24)) := by
  refine ⟨boxOf_wf (k := mockBox.kind) rfl rfl, boxOf_range pl mockBox.kind, rfl, ?_⟩
  rcases h : pl.long8 <;> simp only [OldMesh.size, Plat.cLong, h] <;> decide +kernel

section
variable {F : Type} [FArith F] [LawfulLt F]

/-- **C172.** Moving a mesh does not change the length of its file. -/
theorem C172_translate (pl : Plat) {vs : Nat} {m : OldMesh F} (order : OldOrderly vs m) (d : Vec3 F) (rest : List F) :
    ∃ m', oldTranslate m (d.x :: d.y :: d.z :: rest) = (m', none) ∧ m'.size pl = m.size pl := by
  obtain ⟨o, pos⟩ := order.pos
  obtain ⟨l, gs, e, h1, -, h2⟩ := C87_translate_tiled order.packed order.tiled pos order.bounds order.small d rest
  refine ⟨_, e, ?_⟩
  have := OldMesh.size_rest (pl := pl) (m := m) (m' := { m with vertices := l, vertsList := false, geoms := gs })
    rfl rfl rfl
  have e2 := sizes_grown (n := pl.cLong) (k := m.kind) (v := m.head.version) h2
  simp only [] at this e2
  rw [e2, h1] at this
  omega

/-- **C172.** Nor does turning it. -/
theorem C172_rotate [Libm F] (pl : Plat) {vs : Nat} {m : OldMesh F} (order : OldOrderly vs m) (y p r : F)
    (rest : List F) (defined : ∀ a ∈ [y, p, r], (Libm.cos (Libm.radians a)).isSome ∧
      (Libm.sin (Libm.radians a)).isSome) :
    ∃ m', oldRotate m (y :: p :: r :: rest) = (m', none) ∧ m'.size pl = m.size pl := by
  obtain ⟨o, pos⟩ := order.pos
  obtain ⟨oN, normal⟩ := order.normal
  obtain ⟨oT, tangent⟩ := order.tangent
  obtain ⟨R, h⟩ := C99_one_map y p r rest defined
  obtain ⟨l, gs, e, h1, -, -, h2⟩ := h vs o oN oT m order.packed order.tiled pos normal tangent order.bounds order.small
  refine ⟨_, e, ?_⟩
  have := OldMesh.size_rest (pl := pl) (m := m) (m' := { m with vertices := l, vertsList := false, geoms := gs })
    rfl rfl rfl
  have e2 := sizes_grown (n := pl.cLong) (k := m.kind) (v := m.head.version) h2
  simp only [] at this e2
  rw [e2, h1] at this
  omega

/-- **C172.** Merging adds the vertices and indices of the other mesh, and nothing else. -/
theorem C172_merge (pl : Plat) {vs : Nat} {m other : OldMesh F} (order : OldOrderly vs m)
    (order' : OldOrderly vs other) (attrs : m.vattrs = other.vattrs)
    (static : m.kind.isStatic = true ∨ other.kind.isStatic = true) (counts : OldSameCounts m other)
    (small : m.vertices.length + other.vertices.length ≤ 2 ^ 53) :
    ∃ m', oldMerge m other = (m', none) ∧
      m'.size pl = m.size pl + 4 * other.vertices.length + 2 * other.index.length := by
  have able : OldMergeable vs m other := ⟨order.packed, order'.packed, attrs, static, counts, order.tiled.exist,
    order'.tiled.exist, order.tiledIndex.exist, order'.tiledIndex.exist⟩
  have ids : ∀ x : OldMesh F, OldOrderly vs x → x.ids.length * vs = x.vertices.length := by
    intro x hx
    obtain ⟨n, hn, hl⟩ := hx.packed.num
    rw [hx.tiled.ids hn, List.length_range, hl]
  have sum : (m.ids.length + other.ids.length) * vs = m.vertices.length + other.vertices.length := by
    rw [Nat.add_mul, ids m order, ids other order']
  obtain ⟨q, hq⟩ := order.pos
  obtain ⟨m1, gs, m', mid, hg, e1, e2, fin⟩ := oldMerge_final able hq order.bounds (by rw [sum]; exact small)
  refine ⟨m', e1, ?_⟩
  have hv : m'.vertices.length = m.vertices.length + other.vertices.length := by
    rw [fin.vertices, mergedVerts_length able able.mats_length, sum]
  have hi : m'.index.length = m.index.length + other.index.length := by
    have h1 := (fin.tiledIndex able).total
    have h2 : (m'.mats.map Mat.inum).sum = (m.mats.map Mat.inum).sum + (other.mats.map Mat.inum).sum := by
      rw [fin.field Mat.inum (fun _ _ _ => rfl), retile_inum]
      have := able.mats_length
      revert this
      generalize m.mats = as
      generalize other.mats = bs
      intro hl
      induction as generalizing bs with
      | nil => cases bs with
        | nil => rfl
        | cons b bs => cases hl
      | cons a as ih => cases bs with
        | nil => cases hl
        | cons b bs =>
          rw [List.zipWith_cons_cons, List.map_cons, List.sum_cons, ih bs (Nat.succ.inj hl), List.map_cons,
            List.sum_cons, List.map_cons, List.sum_cons]
          show a.inum + b.inum + _ = _
          omega
    have h3 := order.tiledIndex.total
    have h4 := order'.tiledIndex.total
    omega
  have hgeoms : (m'.geoms.map (OldGeom.size pl.cLong m.kind m.head.version)).sum =
      (m.geoms.map (OldGeom.size pl.cLong m.kind m.head.version)).sum := by
    have hgs : m'.geoms = gs := by rw [e2]
    have hm1 : m1.geoms.flatMap OldGeom.mats = m1.mats := rfl
    have hlen : m1.geoms.length = m.geoms.length := by simpa using congrArg List.length mid.shape
    rw [hgs, sizes_grown hg, sizes_flat, sizes_flat, own_of_shape _ _ mid.shape, hlen, hm1, mid.mats,
      retile_size _ _ _ able.mats_length]
    rfl
  have key := OldMesh.size_rest (pl := pl) (m := m) (m' := m') (by rw [e2, mid.rest]) (by rw [e2, mid.rest])
    (by rw [e2, mid.rest])
  omega

end

section
variable {F : Type}

/-- **C172.** Changing the floats of one vertex does not change the length. -/
theorem C172_edit_vertex [FArith F] (pl : Plat) {vs o : Nat} {m : OldMesh F} {u : Int} {i : Nat} {data : List F}
    (table : PackedTable vs m.vertformat m.vertstride m.vattrs)
    (editable : ∀ a ∈ m.vattrs, EditableAttr a) (usage : UsageAt m.vertformat m.vattrs u o)
    (small : o ≤ 2 ^ 53) (vertsList : m.vertsList = true) (exist : (i : Int) < m.vertnum)
    (fits : i * vs + o + data.length ≤ m.vertices.length) :
    ∃ m', editVertex m i u data = (m', none) ∧ m'.size pl = m.size pl := by
  refine ⟨_, C97_edit_vertex table editable usage small vertsList exist fits, ?_⟩
  unfold OldMesh.size overwritten
  simp only [List.length_append, List.length_take, List.length_drop]
  omega

/-- **C172.** A new name for a map adds its letters and takes away those of the old name. -/
theorem C172_rename (pl : Plat) {m : OldMesh F} {gi li ai qi : Int} {i j k q : Nat} {g : OldGeom F}
    {l : OldLod F} {a : Mat F} {old : Bytes} {path : List Nat} (ascii : ∀ c ∈ path, c < 128)
    (hi : Names m.geoms.length gi i) (hg : m.geoms[i]? = some g)
    (hj : Names g.lods.length li j) (hl : g.lods[j]? = some l)
    (hk : Names l.materials.length ai k) (ha : l.materials[k]? = some a)
    (hq : Names a.maps.length qi q) (hold : a.maps[q]? = some old) :
    ∃ m', renameTexture m gi li ai qi path = (m', none) ∧ m'.size pl + old.length = m.size pl + path.length := by
  refine ⟨_, C98_rename_texture ascii hi hg hj hl hk ha hq, ?_⟩
  have e1 := sum_map_set List.length (b := path.map fun c => UInt8.ofNat c) hold
  have e2 := sum_map_set (Mat.size pl.cLong m.kind m.head.version)
    (b := { a with maps := a.maps.set q (path.map fun c => UInt8.ofNat c) }) ha
  have e3 := sum_map_set (fun l : OldLod F => l.ownSize pl.cLong m.kind +
      (l.materials.map (Mat.size pl.cLong m.kind m.head.version)).sum)
    (b := { l with materials := l.materials.set k { a with
        maps := a.maps.set q (path.map fun c => UInt8.ofNat c) } }) hl
  have e4 := sum_map_set (OldGeom.size pl.cLong m.kind m.head.version) (b := { g with
      lods := g.lods.set j { l with materials := l.materials.set k { a with
        maps := a.maps.set q (path.map fun c => UInt8.ofNat c) } } }) hg
  have own : ∀ ms, ({ l with materials := ms } : OldLod F).ownSize pl.cLong m.kind = l.ownSize pl.cLong m.kind :=
    fun _ => rfl
  simp only [own] at e3
  have mat : Mat.size pl.cLong m.kind m.head.version
      { a with maps := a.maps.set q (path.map fun c => UInt8.ofNat c) } + old.length =
      Mat.size pl.cLong m.kind m.head.version a + path.length := by
    unfold Mat.size MatInfo.size Mat.info
    simp only [List.length_set]
    rw [List.length_map] at e1
    omega
  have geom : OldGeom.size pl.cLong m.kind m.head.version { g with
      lods := g.lods.set j { l with materials := l.materials.set k { a with
        maps := a.maps.set q (path.map fun c => UInt8.ofNat c) } } } + old.length =
      OldGeom.size pl.cLong m.kind m.head.version g + path.length := by
    unfold OldGeom.size
    simp only []
    omega
  unfold OldMesh.size
  simp only []
  omega

/-- **C172.** Copying a geom adds the length of the geom. -/
theorem C172_copy (pl : Plat) (m : OldMesh F) {idCopy idNew : Int} {j p : Nat} {g : OldGeom F}
    (copy : Names m.geoms.length idCopy j) (hg : m.geoms[j]? = some g) (new : InsertsAt m.geoms.length idNew p) :
    ∃ m', copyGeomId m idCopy idNew = (m', none) ∧
      m'.size pl = m.size pl + g.size pl.cLong m.kind m.head.version := by
  refine ⟨_, C95_copy_geom m copy hg new, ?_⟩
  have e : ((insertedAt m.geoms p g).map (OldGeom.size pl.cLong m.kind m.head.version)).sum =
      (m.geoms.map (OldGeom.size pl.cLong m.kind m.head.version)).sum + g.size pl.cLong m.kind m.head.version := by
    have := congrArg (fun l => (l.map (OldGeom.size pl.cLong m.kind m.head.version)).sum)
      (List.take_append_drop p m.geoms)
    simp only [List.map_append, List.sum_append] at this
    unfold insertedAt
    simp only [List.map_append, List.sum_append, List.map_cons, List.sum_cons]
    omega
  unfold OldMesh.size
  simp only [e]
  omega

/-- **C172.** Putting the geoms into another order keeps the length. -/
theorem C172_order (pl : Plat) (m : OldMesh F) {order : List Int} {js : List Nat}
    (names : List.Forall₂ (Names m.geoms.length) order js) (perm : js.Perm (List.range m.geoms.length)) :
    ∃ m', orderGeomsBy m order = (m', none) ∧ m'.size pl = m.size pl := by
  obtain ⟨gs, h1, h2⟩ := C94_order_geoms m names
  refine ⟨_, h2, ?_⟩
  have e1 : gs.map some = js.map fun j => m.geoms[j]? := by
    refine forall₂_map_eq h1 ?_
    intro j a h
    exact h.symm
  have e2 : (List.range m.geoms.length).map (fun j => m.geoms[j]?) = m.geoms.map some := by
    apply List.ext_getElem?
    intro i
    by_cases hi : i < m.geoms.length <;> simp [hi]
  have hp : (gs.map some).Perm (m.geoms.map some) := by
    rw [e1, ← e2]
    exact perm.map _
  have hs := ((hp.map fun x : Option (OldGeom F) => (x.map (OldGeom.size pl.cLong m.kind m.head.version)).getD 0)).sum_eq
  rw [List.map_map, List.map_map] at hs
  have hs' : (gs.map (OldGeom.size pl.cLong m.kind m.head.version)).sum =
    (m.geoms.map (OldGeom.size pl.cLong m.kind m.head.version)).sum := hs
  unfold OldMesh.size
  simp only [hs']

/-- **C172.** Deleting a geom takes away the geom, and the vertices and indices its materials use. -/
theorem C172_delete [FArith F] (pl : Plat) {vs : Nat} {m : OldMesh F} (packed : Packed vs m) (tiled : OldTiled m)
    (tiledIndex : OldTiledIndex m) (vertsList : m.vertsList = true) (indexList : m.indexList = true)
    (small : m.vertices.length ≤ 2 ^ 53) {j : Nat} {g : OldGeom F} {a : Mat F}
    (hg : m.geoms[j]? = some g) (first : g.First a) :
    ∃ m', deleteGeomId m j = (m', none) ∧
      (m'.size pl : Int) = m.size pl - g.size pl.cLong m.kind m.head.version - 4 * vs * (g.mats.map Mat.vnum).sum -
        2 * (g.mats.map Mat.inum).sum := by
  obtain ⟨m', h1, h2, h3, h4, h5, h6⟩ := C96_delete_geom packed tiled tiledIndex vertsList indexList small hg first
  refine ⟨m', h1, ?_⟩
  have hs : m'.geoms.map (OldGeom.size pl.cLong m.kind m.head.version) =
      (m.geoms.eraseIdx j).map (OldGeom.size pl.cLong m.kind m.head.version) := by
    refine sizes_like (List.Forall₂.imp ?_ h3)
    rintro x x' ⟨-, hx⟩
    refine hx.imp ?_
    rintro l l' ⟨hl, hm⟩
    refine ⟨by rw [hl]; rfl, forall₂_map_eq hm ?_⟩
    intro b b' hb
    rw [hb.fields]; rfl
  have he := sum_eraseIdx (OldGeom.size pl.cLong m.kind m.head.version) hg
  have key := OldMesh.size_rest (pl := pl) (m := m) (m' := m') (by rw [h2]) (by rw [h2]) (by rw [h2])
  rw [hs] at key
  have hv : (m'.vertices.length : Int) = m.vertices.length - vs * (g.mats.map Mat.vnum).sum := by
    rw [h4.count, packed.count, h2]
    simp only []
    rw [Int.sub_mul, Int.mul_comm (vs : Int)]
  have hi : (m'.index.length : Int) = m.index.length - (g.mats.map Mat.inum).sum := by
    have split : ∀ (gs : List (OldGeom F)) (j : Nat), gs[j]? = some g →
        ((gs.flatMap OldGeom.mats).map Mat.inum).sum =
          (((gs.eraseIdx j).flatMap OldGeom.mats).map Mat.inum).sum + (g.mats.map Mat.inum).sum := by
      intro gs
      induction gs with
      | nil => intro j h; cases h
      | cons x gs ih =>
        intro j h
        cases j with
        | zero =>
          obtain rfl : x = g := by simpa using h
          rw [List.eraseIdx_cons_zero, List.flatMap_cons, List.map_append, List.sum_append, Int.add_comm]
        | succ j =>
          rw [List.eraseIdx_cons_succ, List.flatMap_cons, List.map_append, List.sum_append,
            ih j (by simpa using h), List.flatMap_cons, List.map_append, List.sum_append]
          omega
    have same : m'.mats.map Mat.inum = ((m.geoms.eraseIdx j).flatMap OldGeom.mats).map Mat.inum := by
      show (m'.geoms.flatMap OldGeom.mats).map Mat.inum = _
      unfold OldGeom.mats
      simp only [List.map_flatMap]
      have : ∀ gs : List (OldGeom F), (gs.flatMap fun x => x.lods.flatMap fun l => l.materials.map Mat.inum) =
          (gs.map fun x => (x.lods.map fun l => l.materials.map Mat.inum).flatten).flatten := by
        intro gs
        simp only [List.flatMap_def]
      refine (this _).trans (Eq.trans ?_ (this _).symm)
      congr 1
      refine forall₂_map_eq h3 ?_
      rintro x x' ⟨-, hx⟩
      congr 1
      refine forall₂_map_eq hx ?_
      rintro l l' ⟨-, hm⟩
      refine forall₂_map_eq hm ?_
      intro b b' hb
      rw [hb.fields]
    have t1 := tiledIndex.total
    have t2 := h6.total
    have t3 := split m.geoms j hg
    have t4 : (m.mats.map Mat.inum).sum = ((m.geoms.flatMap OldGeom.mats).map Mat.inum).sum := rfl
    rw [same] at t2
    omega
  have hv' : (4 : Int) * m'.vertices.length = 4 * m.vertices.length - 4 * vs * (g.mats.map Mat.vnum).sum := by
    rw [hv, Int.mul_sub, Int.mul_assoc]
  omega

end

/-- A box moved, a vertex of it edited, another box merged in, a map of 11 letters called `a`, turned; two geoms, the
second copied and the first deleted with two vertices of four floats and three indices. -/
example : staticBox.size win = 1509 ∧ staticBox3.size win = 1509 ∧
    staticBox4.size win = 1509 + 4 * 288 + 2 * 36 ∧ staticBox6.size win = 1509 + 4 * 288 + 2 * 36 - 11 + 1 ∧
    (oldSave win staticBox6).err = none ∧ (oldSave win staticBox6).bytes.length = staticBox6.size win ∧
    joinList.geoms.map (OldGeom.size 4 joinList.kind joinList.head.version) = [83, 83] ∧
    (copyGeomId joinList 1 0).1.size win = joinList.size win + 83 ∧
    (orderGeomsBy joinList [-1, 0]).1.size win = joinList.size win ∧
    (deleteGeomId joinList 0).1.size win + 83 + 4 * 4 * 2 + 2 * 3 = joinList.size win :=
  ⟨by decide +kernel, by decide +kernel, by decide +kernel, by decide +kernel, by decide +kernel,
    by decide +kernel, by decide +kernel, by decide +kernel, by decide +kernel, by decide +kernel⟩

end Bf2
