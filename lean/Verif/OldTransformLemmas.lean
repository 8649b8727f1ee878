import Verif.OldTransformSpec
import Verif.OldMergeLemmas
import Verif.OldSaveLemmas
import Verif.ReorderLemmas
import Verif.Props.Format

/-!
# Lemmas on the methods of `VisMeshTransform`
-/

namespace Bf2

variable {F : Type}

/-! ## Saving -/

section
variable [FCodec F]

omit [FCodec F] in
theorem table_map {α β : Type} (f : β → Out) (g : α → β) (l : List α) (n : Int) :
    Out.table f (l.map g) n = Out.table (fun a => f (g a)) l n := by
  unfold Out.table
  refine each_congr fun i _ => ?_
  rw [List.getElem?_map]
  rcases l[i]? with _ | a <;> rfl

/-- What is written depends on what `plain` keeps only. -/
theorem oldSave_plain (pl : Plat) (o : OldMesh F) : oldSave pl o.plain = oldSave pl o := by
  unfold oldSave OldMesh.plain
  simp only [table_map, each_map, OldGeom.plain]
  rfl

theorem oldSave_shows {pl : Plat} {o : OldMesh F} {m : Mesh F} (h : Shows o m) :
    oldSave pl o = oldSave pl m.old := by
  rw [← oldSave_plain, h, oldSave_plain]

end

/-- Saving a mesh that shows `m` writes a file that loads as `m` with its last nodes. -/
theorem shows_save {pl : Plat} {o : OldMesh F64} {m : Mesh F64} (h : Shows o m)
    (wf : MeshWF m) (range : InRange pl m) :
    ∃ out, oldSave pl o = ⟨out, none⟩ ∧
      load pl m.kind out = .ok (m.lastNodes.map fun x => unpackF (packF x)) := by
  have e : oldSave pl o = fileBytes pl (m.lastNodes.map packF) := by
    rw [oldSave_shows h, oldSave_old wf range, exportMesh_map, ← fileBytes_elems]
    rfl
  have hw : MeshWF (m.lastNodes.map packF) := wf.lastNodes.map _
  have hn : (fileBytes pl (m.lastNodes.map packF)).err = none :=
    (fileBytes_err hw).2 (range.lastNodes.map _)
  have hx : fileBytes pl (m.lastNodes.map packF) =
      ⟨(fileBytes pl (m.lastNodes.map packF)).bytes, none⟩ := Out.ext' rfl hn
  refine ⟨_, e.trans hx, load_ok_map.2 ⟨_, load_raw_iff.2 ⟨hw, rfl, hx⟩, ?_⟩⟩
  rw [Mesh.map_map]
  rfl

/-- If there are fewer geoms than `geomnum` says, saving raises. -/
theorem oldSave_short [FCodec F] {pl : Plat} {o : OldMesh F}
    (h : o.geoms.length < o.geomnum.toNat) : (oldSave pl o).err ≠ none := by
  intro hno
  unfold oldSave at hno
  simp only [all_cons_err] at hno
  obtain ⟨-, -, -, ht, -⟩ := hno
  unfold Out.table at ht
  rw [each_err] at ht
  have := ht o.geoms.length (by simpa using h)
  simp [Out.raise] at this

theorem each_append {α : Type} (f : α → Out) (l l' : List α) :
    Out.each f (l ++ l') = (Out.each f l).seq (Out.each f l') := by
  induction l with
  | nil => simp [Out.each]
  | cons a l ih => simp only [List.cons_append, Out.each, ih, Out.seq_assoc]

theorem each_range_add (g : Nat → Out) (a k : Nat) :
    ∃ x, Out.each g (List.range (a + (k + 1))) = (Out.each g (List.range a)).seq ((g a).seq x) := by
  refine ⟨Out.each g (((List.range k).map Nat.succ).map (a + ·)), ?_⟩
  rw [List.range_add, each_append, List.range_succ_eq_map]
  rfl

/-- A table with more entries announced than there are. -/
theorem table_short {α : Type} {f : α → Out} {l : List α} {n : Int} (h : l.length < n.toNat)
    (ok : ∀ a ∈ l, (f a).err = none) :
    Out.table f l n = ⟨(Out.each f l).bytes, some .indexError⟩ := by
  have e : ∃ x, Out.table f l n = (Out.table f l l.length).seq ((Out.raise .indexError).seq x) := by
    unfold Out.table
    rw [Int.toNat_natCast, show n.toNat = l.length + (n.toNat - l.length - 1 + 1) by omega]
    obtain ⟨x, hx⟩ := each_range_add (fun i => match l[i]? with
      | some a => f a
      | none => .raise .indexError) l.length (n.toNat - l.length - 1)
    refine ⟨x, hx.trans ?_⟩
    simp only [List.getElem?_eq_none (Nat.le_refl _)]
    rfl
  obtain ⟨x, e⟩ := e
  have hn : (Out.each f l).err = none := each_err.2 ok
  rw [e, table_eq (by simp)]
  unfold Out.seq
  rw [hn]
  simp [Out.raise]

/-- If there are fewer geoms than `geomnum` says, but saving with some more succeeds, then it raises
`IndexError`, and leaves a part of that file. -/
theorem oldSave_cut [FCodec F] {pl : Plat} {o : OldMesh F} {more : List (OldGeom F)}
    (len : o.geoms.length + more.length = o.geomnum.toNat) (some_ : more ≠ []) {out : Bytes}
    (full : oldSave pl { o with geoms := o.geoms ++ more } = ⟨out, none⟩) :
    (oldSave pl o).err = some .indexError ∧
      ∃ tail, tail ≠ [] ∧ out = (oldSave pl o).bytes ++ tail := by
  have hlen : 0 < more.length := List.length_pos_iff.2 some_
  have herr : (oldSave pl { o with geoms := o.geoms ++ more }).err = none := by rw [full]
  have hout : (oldSave pl { o with geoms := o.geoms ++ more }).bytes = out := by rw [full]
  unfold oldSave at herr hout
  rw [table_eq (by simpa using len), each_append] at herr hout
  simp only [all_cons_err] at herr
  obtain ⟨h1, h2, h3, h4, h5, -⟩ := herr
  rw [seq_err] at h4
  have hl : ∀ g ∈ o.geoms, (writeLong pl g.lodnum).err = none := each_err.1 h4.1
  unfold oldSave
  rw [table_short (by omega) hl]
  rcases e1 : oldWriteHead pl o.head with ⟨b1, c1⟩
  rcases e2 : writeByte o.u1 with ⟨b2, c2⟩
  rcases e3 : writeLong pl o.geomnum with ⟨b3, c3⟩
  rcases e4 : Out.each (fun g : OldGeom F => writeLong pl g.lodnum) o.geoms with ⟨b4, c4⟩
  rcases e5 : Out.each (fun g : OldGeom F => writeLong pl g.lodnum) more with ⟨b5, c5⟩
  rcases e6 : writeLong pl o.vertattribnum with ⟨b6, c6⟩
  simp only [e1, e2, e3, e4, e5, e6] at h1 h2 h3 h4 h5 hout
  subst h1 h2 h3 h5
  obtain ⟨rfl, rfl⟩ := h4
  have h6 : b6 ≠ [] := by
    rintro rfl
    unfold writeLong at e6
    split_ifs at e6
    · have := congrArg (fun x : Out => x.bytes.length) e6
      rcases pl.longSize_cases with h | h <;> simp [Out.write, h] at this
    · cases e6
  simp only [Out.all, Out.mk_none_seq] at hout
  have hb : ∀ rest, Out.all (⟨b1, none⟩ :: ⟨b2, none⟩ :: ⟨b3, none⟩ :: ⟨b4, some .indexError⟩ :: rest) =
      ⟨b1 ++ (b2 ++ (b3 ++ b4)), some .indexError⟩ := fun rest => by simp [Out.all]
  rw [hb]
  generalize Out.bytes (Out.seq _ _) = x at hout
  refine ⟨rfl, b5 ++ (b6 ++ x), by simp [h6], ?_⟩
  rw [← hout]
  simp only [List.append_assoc]

/-! ## Geoms of a loaded mesh -/

theorem oldLods_plain (k : Kind) (prev : List (Mat F)) (ls : List (Lod F)) :
    (oldLods k prev ls).map OldLod.plain = ls.map (Lod.old k 0) := by
  induction ls generalizing prev with
  | nil => rfl
  | cons l ls ih => rw [oldLods, List.map_cons, ih]; rfl

theorem oldGeoms_plain (k : Kind) (prev : List (Mat F)) (gs : List (Geom F)) :
    (oldGeoms k prev gs).map OldGeom.plain = gs.map (Geom.old0 k) := by
  induction gs generalizing prev with
  | nil => rfl
  | cons g gs ih =>
    rw [oldGeoms, List.map_cons, ih]
    simp only [OldGeom.plain, oldLods_plain]
    rfl

theorem PickedAt.map {α β : Type} (f : α → β) {l : List α} {js : List Nat} {l' : List α}
    (h : PickedAt l js l') : PickedAt (l.map f) js (l'.map f) := by
  unfold PickedAt at *
  rw [List.forall₂_map_right_iff]
  exact h.imp fun j a e => by rw [List.getElem?_map, e]; rfl

theorem PickedAt.unique {α : Type} {l : List α} {js : List Nat} {l1 l2 : List α}
    (h1 : PickedAt l js l1) (h2 : PickedAt l js l2) : l1 = l2 := by
  unfold PickedAt at *
  induction h1 generalizing l2 with
  | nil => cases h2; rfl
  | cons e _ ih =>
    cases h2 with
    | cons e' h2 =>
      rw [e] at e'
      cases e'
      rw [ih h2]

theorem PickedAt.exists {α : Type} {l : List α} {js : List Nat} (h : ∀ j ∈ js, j < l.length) :
    ∃ l', PickedAt l js l' := by
  induction js with
  | nil => exact ⟨[], .nil⟩
  | cons j js ih =>
    obtain ⟨l', h'⟩ := ih fun x hx => h x (by simp [hx])
    exact ⟨l[j]'(h j (by simp)) :: l', .cons (List.getElem?_eq_getElem _) h'⟩

theorem PickedAt.mem {α : Type} {l : List α} {js : List Nat} {l' : List α} (h : PickedAt l js l')
    {a : α} (ha : a ∈ l') : a ∈ l := by
  unfold PickedAt at h
  induction h with
  | nil => cases ha
  | cons e _ ih =>
    rcases List.mem_cons.1 ha with rfl | ha
    · exact List.mem_of_getElem? e
    · exact ih ha

/-- A mesh with other geoms, which look like those of `m` would. -/
theorem shows_geoms {m : Mesh F} {gs : List (OldGeom F)} {gs' : List (Geom F)}
    (h : gs.map OldGeom.plain = gs'.map (Geom.old0 m.kind)) (n : Int) :
    Shows { m.old with geoms := gs, geomnum := n } { m with geoms := gs', geomnum := n } := by
  unfold Shows OldMesh.plain
  simp only [h, Mesh.old, oldGeoms_plain]

/-! ## Picking geoms -/

theorem pyGet_names {α : Type} {l : List α} {id : Int} {j : Nat} (h : Names l.length id j) :
    pyGet l id = l[j]? := by
  unfold pyGet
  rw [pyPos_names h]

theorem names_lt {n : Nat} {order : List Int} {js : List Nat}
    (h : List.Forall₂ (Names n) order js) : ∀ j ∈ js, j < n := by
  induction h with
  | nil => simp
  | cons h _ ih =>
    intro j hj
    rcases List.mem_cons.1 hj with rfl | hj
    · exact h.1
    · exact ih j hj

theorem pyGet_bad {α : Type} {l : List α} {id : Int} (h : ∀ j, ¬ Names l.length id j) :
    pyGet l id = none := by
  unfold pyGet
  rcases hp : pyPos l.length id with _ | j
  · rfl
  · exact absurd (names_pyPos hp) (h j)

theorem orderGeomsBy_ok {m : OldMesh F} {order : List Int} {js : List Nat} {gs : List (OldGeom F)}
    (names : List.Forall₂ (Names m.geoms.length) order js) (picked : PickedAt m.geoms js gs) :
    orderGeomsBy m order = ({ m with geoms := gs }, none) := by
  have : mapE (getE m.geoms) order = .ok gs := by
    induction names generalizing gs with
    | nil => cases picked; rfl
    | cons hn _ ih =>
      cases picked with
      | cons e picked =>
        rw [mapE, getE, pyGet_names hn, e, ih picked]
  unfold orderGeomsBy
  rw [this]

theorem orderGeomsBy_bad {m : OldMesh F} {order : List Int} {id : Int} (mem : id ∈ order)
    (bad : ∀ j, ¬ Names m.geoms.length id j) : orderGeomsBy m order = (m, some .indexError) := by
  have : mapE (getE m.geoms) order = .error .indexError := by
    induction order with
    | nil => cases mem
    | cons x order ih =>
      rw [mapE, getE]
      rcases hx : pyGet m.geoms x with _ | g
      · rfl
      · rcases List.mem_cons.1 mem with rfl | hm
        · rw [pyGet_bad bad] at hx; cases hx
        · rw [ih hm]
  unfold orderGeomsBy
  rw [this]

/-! ## Meshes with a choice of the geoms -/

theorem MeshWF.pick {m : Mesh F} (h : MeshWF m) {gs : List (Geom F)} {n : Int}
    (hg : ∀ g ∈ gs, g ∈ m.geoms) (hn : gs.length = n.toNat) :
    MeshWF { m with geoms := gs, geomnum := n } :=
  ⟨hn, fun g hgs => h.geom g (hg g hgs), h.vattrs, h.vertformat, h.vertices, h.not_one, h.index, h.u2⟩

theorem InRange.pick {pl : Plat} {m : Mesh F} (h : InRange pl m) {gs : List (Geom F)} {n : Int}
    (hg : ∀ g ∈ gs, g ∈ m.geoms) (hn : IsLong pl n) :
    InRange pl { m with geoms := gs, geomnum := n } :=
  { h with geomnum := hn, lodnum := fun g hgs => h.lodnum g (hg g hgs)
           lods := fun g hgs => h.lods g (hg g hgs) }

/-! ## Inserting -/

theorem pyInsert_eq {α : Type} (l : List α) (i : Int) (x : α) :
    pyInsert l i x = l.take (clamp l.length i) ++ x :: l.drop (clamp l.length i) := by
  unfold pyInsert pySliceSet
  rw [Nat.max_self]
  simp

theorem insertsAt_clamp (n : Nat) (i : Int) : InsertsAt n i (clamp n i) := by
  unfold InsertsAt clamp
  split <;> omega

theorem InsertsAt.clamp_eq {n : Nat} {i : Int} {p : Nat} (h : InsertsAt n i p) : clamp n i = p := by
  unfold InsertsAt at h
  unfold clamp
  split <;> omega

theorem InsertsAt.le {n : Nat} {i : Int} {p : Nat} (h : InsertsAt n i p) : p ≤ n := by
  unfold InsertsAt at h
  omega

/-! ## Deleting -/

theorem pySliceSet_del {α : Type} (l : List α) {p q : Nat} (h : p ≤ q) (hq : q ≤ l.length) :
    pySliceSet l (p : Int) (q : Int) [] = l.take p ++ l.drop q := by
  unfold pySliceSet
  rw [clamp_nat, clamp_nat, List.append_nil]
  congr 2 <;> omega

theorem block_del_before {α : Type} (l : List α) {p q : Nat} {s n : Int} (hs : 0 ≤ s) (hn : 0 ≤ n)
    (h : s + n ≤ p) (hp : p ≤ l.length) : block (l.take p ++ l.drop q) s n = block l s n := by
  unfold block
  rw [List.drop_append_of_le_length (by rw [List.length_take]; omega),
    List.take_append_of_le_length (by rw [List.length_drop, List.length_take]; omega),
    List.drop_take, List.take_take, Nat.min_eq_left (by omega)]

theorem block_del_after {α : Type} (l : List α) {p q : Nat} {s n : Int} (hp : p ≤ q)
    (hq : q ≤ l.length) (h : (q : Int) ≤ s) :
    block (l.take p ++ l.drop q) (s - ((q : Int) - p)) n = block l s n := by
  unfold block
  obtain ⟨s, rfl⟩ := Int.eq_ofNat_of_zero_le (show 0 ≤ s by omega)
  have e : ((s : Int) - ((q : Int) - p)).toNat = p + (s - q) := by omega
  have hl : (l.take p).length = p := by rw [List.length_take]; omega
  rw [e, ← List.drop_drop, List.drop_append_of_le_length (by omega),
    List.drop_eq_nil_of_le (as := l.take p) (by omega), List.nil_append, List.drop_drop]
  congr 2
  simp only [Int.toNat_natCast]
  omega

theorem mapIdx_erase {α : Type} {f : Nat → α → α} {F : α → α} (b : List α) (x : α) (l : List α)
    (hb : ∀ i, i < b.length → ∀ y, f i y = y) (ha : ∀ i, b.length < i → ∀ y, f i y = F y) :
    ((b ++ x :: l).mapIdx f).eraseIdx b.length = b ++ l.map F := by
  rw [List.mapIdx_append, List.eraseIdx_append_of_length_le (by simp)]
  simp only [List.length_mapIdx, Nat.sub_self, List.mapIdx_cons, List.eraseIdx_cons_zero]
  congr 1
  · apply List.ext_getElem?
    intro i
    rw [List.getElem?_mapIdx]
    rcases hi : b[i]? with _ | y
    · rfl
    · rw [Option.map_some, hb i (List.getElem?_eq_some_iff.1 hi).1]
  · apply List.ext_getElem?
    intro i
    rw [List.getElem?_mapIdx, List.getElem?_map]
    rcases l[i]? with _ | y
    · rfl
    · rw [Option.map_some, Option.map_some, ha _ (by omega)]

theorem retile_shift (v i V I : Int) (l : List (Mat F)) :
    (retile v i l).map (fun b => { b with vstart := b.vstart - V, istart := b.istart - I }) =
      retile (v - V) (i - I) l := by
  induction l generalizing v i with
  | nil => rfl
  | cons a l ih =>
    rw [retile, List.map_cons, ih, retile]
    simp only [List.cons.injEq, true_and]
    congr 1 <;> omega

theorem mats_mapMats (f : Mat F → Mat F) (gs : List (OldGeom F)) :
    (gs.map (OldGeom.mapMats f)).flatMap OldGeom.mats = (gs.flatMap OldGeom.mats).map f := by
  induction gs with
  | nil => rfl
  | cons g gs ih =>
    rw [List.map_cons, List.flatMap_cons, ih, List.flatMap_cons, List.map_append]
    congr 1
    unfold OldGeom.mapMats OldGeom.mats
    simp only [List.flatMap_map, List.map_flatMap]

theorem retile_tiled_old {m : OldMesh F} {l : List (Mat F)} (hm : m.mats = retile 0 0 l)
    (hn : ∀ a ∈ l, 0 ≤ a.vnum) (ht : m.vertnum = (l.map Mat.vnum).sum) : OldTiled m where
  nonneg := by
    intro a ha
    rw [hm] at ha
    obtain ⟨b, hb, h1, -⟩ := retile_mem ha
    rw [h1]
    exact hn b hb
  start := by
    intro i a ha
    rw [hm] at ha
    obtain ⟨b, hb, rfl⟩ := retile_fields ha
    simp only [hm, List.map_take, retile_vnum, Int.zero_add]
  total := by rw [ht, hm, retile_vnum]

theorem retile_tiledIndex_old {m : OldMesh F} {l : List (Mat F)} (hm : m.mats = retile 0 0 l)
    (hn : ∀ a ∈ l, 0 ≤ a.inum) (ht : (m.index.length : Int) = (l.map Mat.inum).sum) :
    OldTiledIndex m where
  nonneg := by
    intro a ha
    rw [hm] at ha
    obtain ⟨b, hb, -, h1⟩ := retile_mem ha
    rw [h1]
    exact hn b hb
  start := by
    intro i a ha
    rw [hm] at ha
    obtain ⟨b, hb, rfl⟩ := retile_fields ha
    simp only [hm, List.map_take, retile_inum, Int.zero_add]
  total := by rw [ht, hm, retile_inum]

theorem retile_eq_self {m : OldMesh F} (h : OldTiled m) (hi : OldTiledIndex m) :
    retile 0 0 m.mats = m.mats :=
  retile_tiled 0 0 (fun k a ha => by rw [h.start k a ha]; omega)
    (fun k a ha => by rw [hi.start k a ha]; omega)

theorem kept_mapMats {f : Mat F → Mat F} (vs : Nat) (m m' : OldMesh F)
    (g : OldGeom F) (h : ∀ a ∈ g.mats, OldMatKept vs m m' a (f a)) :
    OldGeomKept vs m m' g (g.mapMats f) := by
  refine ⟨rfl, forall₂_map_self fun l hl => ⟨rfl, forall₂_map_self fun a ha => h a ?_⟩⟩
  exact List.mem_flatMap.2 ⟨l, hl, ha⟩

theorem kept_self {vs : Nat} {m m' : OldMesh F} (g : OldGeom F)
    (h : ∀ a ∈ g.mats, OldMatKept vs m m' a a) : OldGeomKept vs m m' g g :=
  ⟨rfl, List.forall₂_same.2 fun l hl => ⟨rfl, List.forall₂_same.2 fun a ha =>
    h a (List.mem_flatMap.2 ⟨l, hl, ha⟩)⟩⟩

/-- The parts of a tiled list of materials around a geom. -/
structure Around (vs : Nat) (m : OldMesh F) (B G A : List (Mat F)) : Prop where
  mats : m.mats = B ++ G ++ A
  before : ∀ a ∈ B, 0 ≤ a.vstart ∧ 0 ≤ a.vnum ∧ a.vstart + a.vnum ≤ (B.map Mat.vnum).sum ∧
    0 ≤ a.istart ∧ 0 ≤ a.inum ∧ a.istart + a.inum ≤ (B.map Mat.inum).sum
  after : ∀ a ∈ A, (B.map Mat.vnum).sum + (G.map Mat.vnum).sum ≤ a.vstart ∧
    (B.map Mat.inum).sum + (G.map Mat.inum).sum ≤ a.istart
  first : ∀ a as, G = a :: as → a.vstart = (B.map Mat.vnum).sum ∧ a.istart = (B.map Mat.inum).sum
  hB : 0 ≤ (B.map Mat.vnum).sum ∧ 0 ≤ (B.map Mat.inum).sum
  hG : 0 ≤ (G.map Mat.vnum).sum ∧ 0 ≤ (G.map Mat.inum).sum
  hA : 0 ≤ (A.map Mat.vnum).sum ∧ 0 ≤ (A.map Mat.inum).sum
  retile : B ++ A.map (fun b => { b with
      vstart := b.vstart - (G.map Mat.vnum).sum, istart := b.istart - (G.map Mat.inum).sum }) =
    retile 0 0 (B ++ A)

theorem around {vs : Nat} {m : OldMesh F} (tiled : OldTiled m) (tiledIndex : OldTiledIndex m)
    {B G A : List (Mat F)} (h : m.mats = B ++ G ++ A) : Around vs m B G A := by
  have hn : ∀ l : List (Mat F), (∀ a ∈ l, a ∈ m.mats) →
      0 ≤ (l.map Mat.vnum).sum ∧ 0 ≤ (l.map Mat.inum).sum := fun l hl =>
    ⟨sum_nonneg fun a ha => tiled.nonneg a (hl a ha),
      sum_nonneg fun a ha => tiledIndex.nonneg a (hl a ha)⟩
  have mB : ∀ a ∈ B, a ∈ m.mats := fun a ha => by rw [h]; simp [ha]
  have mG : ∀ a ∈ G, a ∈ m.mats := fun a ha => by rw [h]; simp [ha]
  have mA : ∀ a ∈ A, a ∈ m.mats := fun a ha => by rw [h]; simp [ha]
  have hr := retile_eq_self tiled tiledIndex
  rw [h, retile_append, retile_append, List.append_assoc, List.append_assoc] at hr
  obtain ⟨r1, hr⟩ := List.append_inj hr (retile_length _ _ _)
  obtain ⟨r2, r3⟩ := List.append_inj hr (retile_length _ _ _)
  refine ⟨h, ?_, ?_, ?_, hn B mB, hn G mG, hn A mA, ?_⟩
  · intro a ha
    obtain ⟨k, hk⟩ := List.mem_iff_getElem?.1 ha
    have hk' := hk
    rw [← r1] at hk'
    obtain ⟨b, hb, e⟩ := retile_fields hk'
    have h1 := sum_take_le (fun a ha => tiled.nonneg a (mB a ha)) (k + 1) (l := B)
    have h2 := sum_take_le (fun a ha => tiledIndex.nonneg a (mB a ha)) (k + 1) (l := B)
    rw [sum_take_succ hk] at h1 h2
    have h3 := hn (B.take k) fun a ha => mB a (List.mem_of_mem_take ha)
    have e1 : a.vstart = 0 + ((B.take k).map Mat.vnum).sum := by rw [e]
    have e2 : a.istart = 0 + ((B.take k).map Mat.inum).sum := by rw [e]
    have n1 := tiled.nonneg a (mB a ha)
    have n2 := tiledIndex.nonneg a (mB a ha)
    refine ⟨?_, n1, ?_, ?_, n2, ?_⟩ <;> omega
  · intro a ha
    obtain ⟨k, hk⟩ := List.mem_iff_getElem?.1 ha
    rw [← r3] at hk
    obtain ⟨b, hb, e⟩ := retile_fields hk
    have h3 := hn (A.take k) fun a ha => mA a (List.mem_of_mem_take ha)
    have e1 := congrArg Mat.vstart e
    have e2 := congrArg Mat.istart e
    simp only [List.map_append, List.sum_append] at e1 e2
    omega
  · rintro a as rfl
    rw [retile] at r2
    have := (List.cons.inj r2).1
    rw [← this]
    simp
  · conv_lhs => rw [← r1, ← r3]
    rw [retile_shift, retile_append]
    congr 1
    simp only [List.map_append, List.sum_append]
    congr 1 <;> omega

/-- Deleting a geom of a tiled mesh in lists. -/
theorem delete_ok {vs : Nat} {m : OldMesh F} (packed : Packed vs m) (tiled : OldTiled m)
    (tiledIndex : OldTiledIndex m) (hv : m.vertsList = true) (hi : m.indexList = true)
    (small : m.vertices.length ≤ 2 ^ 53) {j : Nat} {g : OldGeom F} {a : Mat F}
    (hg : m.geoms[j]? = some g) (first : g.First a) :
    ∃ m', deleteGeomId m j = (m', none) ∧
      m' = { m with
        geomnum := m.geomnum - 1, geoms := m'.geoms, vertices := m'.vertices
        vertnum := m.vertnum - (g.mats.map Mat.vnum).sum, index := m'.index
        indexnum := m.indexnum - (g.mats.map Mat.inum).sum } ∧
      List.Forall₂ (OldGeomKept vs m m') (m.geoms.eraseIdx j) m'.geoms ∧
      Packed vs m' ∧ OldTiled m' ∧ OldTiledIndex m' := by
  obtain ⟨hj, hgj⟩ := List.getElem?_eq_some_iff.1 hg
  obtain ⟨gb, ga, hgs, hgb⟩ : ∃ gb ga, m.geoms = gb ++ g :: ga ∧ gb.length = j :=
    ⟨m.geoms.take j, m.geoms.drop (j + 1), by rw [← hgj]; simp, by simp; omega⟩
  have hmats : m.mats = gb.flatMap OldGeom.mats ++ g.mats ++ ga.flatMap OldGeom.mats := by
    have : m.mats = m.geoms.flatMap OldGeom.mats := rfl
    rw [this, hgs]
    simp
  have ar := around (vs := vs) tiled tiledIndex hmats
  generalize hB : gb.flatMap OldGeom.mats = B at ar hmats
  generalize hA : ga.flatMap OldGeom.mats = A at ar hmats
  obtain ⟨l, ls, as, hl, hla⟩ := first
  have hG : g.mats = a :: (as ++ ls.flatMap OldLod.materials) := by
    show g.lods.flatMap OldLod.materials = _
    rw [hl, List.flatMap_cons, hla]
    rfl
  obtain ⟨f1, f2⟩ := ar.first a _ hG
  have tot : m.vertnum = (B.map Mat.vnum).sum + (g.mats.map Mat.vnum).sum + (A.map Mat.vnum).sum := by
    rw [tiled.total, hmats]; simp [Int.add_assoc]
  have totI : (m.index.length : Int) =
      (B.map Mat.inum).sum + (g.mats.map Mat.inum).sum + (A.map Mat.inum).sum := by
    rw [tiledIndex.total, hmats]; simp [Int.add_assoc]
  obtain ⟨s, hs⟩ := Int.eq_ofNat_of_zero_le ar.hB.1
  obtain ⟨si, hsi⟩ := Int.eq_ofNat_of_zero_le ar.hB.2
  obtain ⟨v, hv'⟩ := Int.eq_ofNat_of_zero_le ar.hG.1
  obtain ⟨vi, hvi⟩ := Int.eq_ofNat_of_zero_le ar.hG.2
  obtain ⟨t, ht⟩ := Int.eq_ofNat_of_zero_le ar.hA.1
  obtain ⟨ti, hti⟩ := Int.eq_ofNat_of_zero_le ar.hA.2
  have hpB := ar.before
  have hpA := ar.after
  have hret := ar.retile
  rw [hs, hsi] at hpB
  rw [hs, hsi, hv', hvi] at hpA
  rw [hv', hvi] at hret
  rw [hs, hv', ht] at tot
  rw [hsi, hvi, hti] at totI
  rw [hs] at f1
  rw [hsi] at f2
  have len : m.vertices.length = (s + v + t) * vs := by
    have := packed.count
    rw [tot] at this
    exact_mod_cast this
  have lenI : m.index.length = si + vi + ti := by exact_mod_cast totI
  have b1 : s * vs ≤ (s + v) * vs := Nat.mul_le_mul_right _ (by omega)
  have b2 : (s + v) * vs ≤ m.vertices.length := by
    rw [len]; exact Nat.mul_le_mul_right _ (by omega)
  have b3 : v * vs ≤ (s + v) * vs := Nat.mul_le_mul_right _ (by omega)
  have bnd : ∀ x : Nat, x * vs ≤ (s + v) * vs → |(vs : Int) * (x : Int)| ≤ 2 ^ 53 := by
    intro x hx
    rw [abs_of_nonneg (by positivity)]
    have : (((x * vs : Nat)) : Int) ≤ 2 ^ 53 := by exact_mod_cast (hx.trans b2).trans small
    push_cast at this
    linarith [mul_comm (vs : Int) (x : Int)]
  have d1 : intDivMul m.vertstride m.vertformat a.vstart = ((s * vs : Nat) : Int) := by
    rw [f1, intDivMul_exact packed.table.format packed.table.stride (bnd s b1)]
    push_cast; ring
  have d2 : intDivMul m.vertstride m.vertformat (v : Int) = ((v * vs : Nat) : Int) := by
    rw [intDivMul_exact packed.table.format packed.table.stride (bnd v b3)]
    push_cast; ring
  have d3 : ((s * vs : Nat) : Int) + ((v * vs : Nat) : Int) = (((s + v) * vs : Nat) : Int) := by
    push_cast; ring
  let sh : Mat F → Mat F := fun b => { b with vstart := b.vstart - v, istart := b.istart - vi }
  let m' : OldMesh F := { m with
    geomnum := m.geomnum - 1, geoms := gb ++ ga.map (OldGeom.mapMats sh)
    vertices := m.vertices.take (s * vs) ++ m.vertices.drop ((s + v) * vs)
    vertnum := m.vertnum - v
    index := m.index.take si ++ m.index.drop (si + vi), indexnum := m.indexnum - vi }
  have hdel : deleteGeomId m j = (m', none) := by
    unfold deleteGeomId
    have hn : Names m.geoms.length (j : Int) j := ⟨hj, .inl rfl⟩
    have hhead : (g.lods.head?.bind fun l => l.materials.head?) = some a := by
      rw [hl]; simp [hla]
    have hne : g.mats ≠ [] := by rw [hG]; simp
    simp only [pyGet_names hn, hg, hne, if_false, packed.table.format, hhead, hv, hi, Bool.not_true,
      Bool.false_eq_true, hv', hvi, d1, d2, d3, pySliceSet_del _ b1 b2, pyPos_names hn]
    have e1 : a.istart + (vi : Int) = ((si + vi : Nat) : Int) := by rw [f2]; push_cast; rfl
    rw [e1, f2, pySliceSet_del _ (by omega) (by omega), hgs, ← hgb,
      mapIdx_erase (F := OldGeom.mapMats sh) gb g ga]
    · show _ = (({ m with
          geomnum := m.geomnum - 1, geoms := gb ++ ga.map (OldGeom.mapMats sh)
          vertices := m.vertices.take (s * vs) ++ m.vertices.drop ((s + v) * vs)
          vertnum := m.vertnum - v
          index := m.index.take si ++ m.index.drop (si + vi)
          indexnum := m.indexnum - vi } : OldMesh F), none)
      rw [hv, hi]
    · intro i hi y
      rw [if_neg (by omega)]
    · intro i hi y
      rw [if_pos (by omega)]
  have kB : ∀ b ∈ B, OldMatKept vs m m' b b := by
    intro b hb
    obtain ⟨h1, h2, h3, h4, h5, h6⟩ := hpB b hb
    refine ⟨rfl, ?_, ?_⟩
    · unfold OldMesh.vdata
      refine block_del_before _ (by positivity) (by positivity) ?_ (b1.trans b2)
      have := mul_le_mul_of_nonneg_right h3 (show (0 : Int) ≤ vs by positivity)
      push_cast
      linarith
    · unfold OldMesh.idata
      exact block_del_before _ h4 h5 (by omega) (by omega)
  have kA : ∀ b ∈ A, OldMatKept vs m m' b (sh b) := by
    intro b hb
    obtain ⟨h1, h2⟩ := hpA b hb
    refine ⟨rfl, ?_, ?_⟩
    · unfold OldMesh.vdata
      have h3 : (((s + v) * vs : Nat) : Int) ≤ b.vstart * vs := by
        have := mul_le_mul_of_nonneg_right h1 (show (0 : Int) ≤ vs by positivity)
        push_cast
        linarith
      rw [← block_del_after m.vertices b1 b2 h3]
      congr 1
      show (b.vstart - v) * vs = _
      push_cast
      ring
    · unfold OldMesh.idata
      rw [← block_del_after m.index (p := si) (q := si + vi) (by omega) (by omega)
        (show ((si + vi : Nat) : Int) ≤ b.istart by push_cast; exact h2)]
      congr 1
      show b.istart - vi = _
      push_cast
      ring
  have hmats' : m'.mats = retile 0 0 (B ++ A) := by
    rw [← hret]
    have : m'.mats = m'.geoms.flatMap OldGeom.mats := rfl
    rw [this]
    show (gb ++ ga.map (OldGeom.mapMats sh)).flatMap OldGeom.mats = _
    rw [List.flatMap_append, mats_mapMats, hB, hA]
  refine ⟨m', hdel, ?_, ?_, ⟨packed.table, ?_⟩, ?_, ?_⟩
  · rw [hv', hvi]
  · have : m.geoms.eraseIdx j = gb ++ ga := by
      rw [hgs, ← hgb, List.eraseIdx_append_of_length_le (by omega)]
      simp
    rw [this]
    refine List.rel_append ?_ ?_
    · refine List.forall₂_same.2 fun h hh => kept_self h fun b hb => kB b ?_
      rw [← hB]
      exact List.mem_flatMap.2 ⟨h, hh, hb⟩
    · refine forall₂_map_self fun h hh => kept_mapMats vs m m' h fun b hb => kA b ?_
      rw [← hA]
      exact List.mem_flatMap.2 ⟨h, hh, hb⟩
  · show ((m.vertices.take (s * vs) ++ m.vertices.drop ((s + v) * vs)).length : Int) =
      (m.vertnum - v) * vs
    rw [List.length_append, List.length_take, List.length_drop, tot, len,
      Nat.min_eq_left (by nlinarith)]
    have : (s + v + t) * vs - (s + v) * vs = t * vs := by
      rw [← Nat.sub_mul]; congr 1; omega
    rw [this]
    push_cast
    ring
  · refine retile_tiled_old hmats' ?_ ?_
    · intro b hb
      refine tiled.nonneg b ?_
      rw [hmats]
      rcases List.mem_append.1 hb with h | h <;> simp [h]
    · show m.vertnum - v = _
      rw [List.map_append, List.sum_append, hs, ht, tot]
      ring
  · refine retile_tiledIndex_old hmats' ?_ ?_
    · intro b hb
      refine tiledIndex.nonneg b ?_
      rw [hmats]
      rcases List.mem_append.1 hb with h | h <;> simp [h]
    · show ((m.index.take si ++ m.index.drop (si + vi)).length : Int) = _
      rw [List.map_append, List.sum_append, hsi, hti, List.length_append, List.length_take,
        List.length_drop, lenI]
      omega

/-! ## Editing a vertex -/

theorem overwritten_length {α : Type} {l : List α} {p : Nat} {xs : List α}
    (h : p + xs.length ≤ l.length) : (overwritten l p xs).length = l.length := by
  unfold overwritten
  simp only [List.length_append, List.length_take, List.length_drop]
  omega

theorem overwritten_getElem? {α : Type} {l : List α} {p : Nat} {xs : List α}
    (h : p + xs.length ≤ l.length) (i : Nat) : (overwritten l p xs)[i]? =
      if p ≤ i ∧ i < p + xs.length then xs[i - p]? else l[i]? := by
  unfold overwritten
  have h1 : (l.take p).length = p := by rw [List.length_take]; omega
  rcases Nat.lt_or_ge i p with hi | hi
  · rw [if_neg (by omega), List.append_assoc, List.getElem?_append_left (by omega),
      List.getElem?_take_of_lt hi]
  · rw [List.append_assoc, List.getElem?_append_right (by omega), h1]
    rcases Nat.lt_or_ge i (p + xs.length) with h2 | h2
    · rw [if_pos ⟨hi, h2⟩, List.getElem?_append_left (by omega)]
    · rw [if_neg (by omega), List.getElem?_append_right (by omega), List.getElem?_drop]
      congr 1
      omega

theorem overwritten_cons {α : Type} {l : List α} {p : Nat} {x : α} {xs : List α}
    (h : p + xs.length + 1 ≤ l.length) :
    overwritten (l.set p x) (p + 1) xs = overwritten l p (x :: xs) := by
  apply List.ext_getElem?
  intro i
  rw [overwritten_getElem? (by rw [List.length_set]; omega),
    overwritten_getElem? (by rw [List.length_cons]; omega), List.length_cons]
  rcases Nat.lt_trichotomy i p with hi | rfl | hi
  · rw [if_neg (by omega), if_neg (by omega), List.getElem?_set_ne (by omega)]
  · rw [if_neg (by omega), if_pos (by omega), List.getElem?_set_self (by omega)]
    simp
  · by_cases h2 : i < p + xs.length + 1
    · rw [if_pos (by omega), if_pos (by omega), show i - p = i - (p + 1) + 1 by omega,
        List.getElem?_cons_succ]
    · rw [if_neg (by omega), if_neg (by omega), List.getElem?_set_ne (by omega)]

theorem overwritten_twice {α : Type} {l : List α} {p : Nat} {xs : List α}
    (h : p + xs.length ≤ l.length) : overwritten (overwritten l p xs) p xs = overwritten l p xs := by
  apply List.ext_getElem?
  intro i
  rw [overwritten_getElem? (by rw [overwritten_length h]; omega), overwritten_getElem? h]
  split <;> rfl

theorem pyPos_nat {n p : Nat} (h : p < n) : pyPos n (p : Int) = some p := pyPos_names ⟨h, .inl rfl⟩

theorem setFloats_ok {m : OldMesh F} (hl : m.vertsList = true) {i : Int} {k p : Nat} {xs : List F}
    (hp : i + k = p) (h : p + xs.length ≤ m.vertices.length) :
    setFloats i k xs m = ({ m with vertices := overwritten m.vertices p xs }, none) := by
  induction xs generalizing m k p with
  | nil => simp [setFloats, overwritten]
  | cons x xs ih =>
    rw [List.length_cons] at h
    rw [setFloats, setFloat, hp, pyPos_nat (by omega)]
    simp only [hl, Bool.not_true, Bool.false_eq_true, if_false]
    rw [ih (p := p + 1) (by rfl) (by push_cast; omega) (by simp only [List.length_set]; omega)]
    simp only [overwritten_cons (show p + xs.length + 1 ≤ m.vertices.length by omega)]

/-- Data reaching past the end of the array. -/
theorem setFloats_past {m : OldMesh F} (hl : m.vertsList = true) {i : Int} {k p : Nat} {xs : List F}
    (hp : i + k = p) (h1 : p ≤ m.vertices.length) (h : m.vertices.length < p + xs.length) :
    setFloats i k xs m = ({ m with
      vertices := m.vertices.take p ++ xs.take (m.vertices.length - p) }, some .indexError) := by
  induction xs generalizing m k p with
  | nil => simp at h; omega
  | cons x xs ih =>
    rw [List.length_cons] at h
    rw [setFloats, setFloat, hp]
    simp only [hl, Bool.not_true, Bool.false_eq_true, if_false]
    by_cases he : p = m.vertices.length
    · have hb : pyPos m.vertices.length (p : Int) = none := by
        unfold pyPos
        rw [if_neg (by omega : ¬ (p : Int) < 0), if_neg (by omega)]
      rw [hb, he]
      simp only [Nat.sub_self, List.take_zero, List.append_nil, List.take_length]
      rw [← hl]
    · rw [pyPos_nat (by omega)]
      simp only
      rw [ih (p := p + 1) (by rfl) (by push_cast; omega) (by simp only [List.length_set]; omega)
        (by simp only [List.length_set]; omega)]
      simp only [List.length_set]
      have e : m.vertices.length - p = m.vertices.length - (p + 1) + 1 := by omega
      rw [e, List.take_succ_cons]
      have : (m.vertices.set p x).take (p + 1) = m.vertices.take p ++ [x] := by
        rw [List.take_succ_eq_append_getElem (by rw [List.length_set]; omega), List.take_set,
          List.set_eq_of_length_le (by simp)]
        simp
      rw [this]
      simp

theorem setFloats_tuple {m : OldMesh F} (hl : m.vertsList = false) (i : Int) {xs : List F}
    (h : xs ≠ []) : setFloats i 0 xs m = (m, some .typeError) := by
  cases xs with
  | nil => exact absurd rfl h
  | cons x xs => simp [setFloats, setFloat, hl]

theorem oldDeclLen_ok {t : Int} (h : t ∈ [(0 : Int), 1, 2, 4, 5, 17]) : ∃ n, oldDeclLen t = .ok n := by
  have : ∀ t ∈ [(0 : Int), 1, 2, 4, 5, 17], (oldDeclLen t).isOk = true := by decide
  have := this t h
  rcases hd : oldDeclLen t with e | n
  · rw [hd] at this; cases this
  · exact ⟨n, rfl⟩

theorem editVertexAttr_other {m : OldMesh F} {a : VAttr} {id u : Int} {data : List F}
    (hf : m.vertformat ≠ 0) (hk : EditableAttr a)
    (h : ¬ (a.usage = u ∧ 0 ≤ id ∧ id < m.vertnum)) : editVertexAttr id u data m a = (m, none) := by
  obtain ⟨n, hn⟩ := oldDeclLen_ok hk.1
  unfold editVertexAttr
  rw [(usageKnown_iff _).2 hk.2, hn]
  simp [hf, h]

theorem editVertexAttr_at {m : OldMesh F} {a : VAttr} {id u : Int} {data : List F}
    (hf : m.vertformat ≠ 0) (hk : EditableAttr a)
    (h : a.usage = u ∧ 0 ≤ id ∧ id < m.vertnum) : editVertexAttr id u data m a =
      setFloats (intTrueDiv a.offset m.vertformat + id * intTrueDiv m.vertstride m.vertformat) 0
          data m := by
  obtain ⟨n, hn⟩ := oldDeclLen_ok hk.1
  unfold editVertexAttr
  rw [(usageKnown_iff _).2 hk.2, hn]
  simp [hf, h]

theorem editVertex_ok {vs o : Nat} {m : OldMesh F} {u : Int} {i : Nat} {data : List F}
    (table : PackedTable vs m.vertformat m.vertstride m.vattrs)
    (editable : ∀ a ∈ m.vattrs, EditableAttr a) (usage : UsageAt m.vertformat m.vattrs u o)
    (ho : o ≤ 2 ^ 53) (hl : m.vertsList = true) (hi : (i : Int) < m.vertnum)
    (h : i * vs + o + data.length ≤ m.vertices.length) :
    editVertex m i u data =
      ({ m with vertices := overwritten m.vertices (i * vs + o) data }, none) := by
  have e1 : intTrueDiv m.vertstride m.vertformat = vs :=
    intTrueDiv_exact table.format table.stride (by
      rw [abs_of_nonneg (by positivity)]
      have := table.small
      have h2 : ((vs : Nat) : Int) ≤ 65535 := by exact_mod_cast this
      linarith)
  have key : ∀ (as : List VAttr) (w : List F), (∀ a ∈ as, EditableAttr a) →
      (∀ a ∈ as, a.usage = u → a.offset = m.vertformat * o) →
      (w = m.vertices ∨ w = overwritten m.vertices (i * vs + o) data) →
      foldS (editVertexAttr i u data) { m with vertices := w } as =
        ({ m with vertices := if (∃ a ∈ as, a.usage = u) then
            overwritten m.vertices (i * vs + o) data else w }, none) := by
    intro as
    induction as with
    | nil => intro w _ _ _; simp [foldS]
    | cons a as ih =>
      intro w hed hus hw
      have hlen : w.length = m.vertices.length := by
        rcases hw with rfl | rfl
        · rfl
        · exact overwritten_length h
      rw [foldS]
      by_cases hu : a.usage = u
      · have e2 : intTrueDiv a.offset m.vertformat = o :=
          intTrueDiv_exact table.format (hus a (by simp) hu) (by
            rw [abs_of_nonneg (by positivity)]
            exact_mod_cast ho)
        rw [editVertexAttr_at (by exact table.format) (hed a (by simp)) ⟨hu, by omega, by exact hi⟩]
        simp only [e1, e2]
        rw [setFloats_ok (p := i * vs + o) (by exact hl) (by push_cast; ring) (by rw [hlen]; exact h)]
        have : overwritten w (i * vs + o) data = overwritten m.vertices (i * vs + o) data := by
          rcases hw with rfl | rfl
          · rfl
          · exact overwritten_twice h
        simp only [this]
        rw [ih _ (fun b hb => hed b (by simp [hb])) (fun b hb => hus b (by simp [hb])) (.inr rfl)]
        simp [hu]
      · rw [editVertexAttr_other (by exact table.format) (hed a (by simp)) (fun hh => hu hh.1)]
        simp only
        rw [ih _ (fun b hb => hed b (by simp [hb])) (fun b hb => hus b (by simp [hb])) hw]
        simp [hu]
  have := key m.vattrs m.vertices editable usage.2 (.inl rfl)
  rw [if_pos usage.1] at this
  exact this

theorem foldS_same {σ α : Type} {f : σ → α → σ × Option Err} {s : σ} {l : List α}
    (h : ∀ a ∈ l, f s a = (s, none)) : foldS f s l = (s, none) := by
  induction l with
  | nil => rfl
  | cons a l ih =>
    rw [foldS, h a (by simp)]
    exact ih fun b hb => h b (by simp [hb])

/-- The first entry with the usage decides what an edit that raises leaves behind. -/
theorem editVertex_raises {m m' : OldMesh F} {u : Int} {i : Int} {data : List F} {e : Err}
    (format : m.vertformat ≠ 0) (editable : ∀ a ∈ m.vattrs, EditableAttr a)
    (has : ∃ a ∈ m.vattrs, a.usage = u)
    (h : ∀ a ∈ m.vattrs, a.usage = u → editVertexAttr i u data m a = (m', some e)) :
    editVertex m i u data = (m', some e) := by
  unfold editVertex
  have key : ∀ as : List VAttr, (∀ a ∈ as, a ∈ m.vattrs) → (∃ a ∈ as, a.usage = u) →
      foldS (editVertexAttr i u data) m as = (m', some e) := by
    intro as
    induction as with
    | nil => rintro _ ⟨_, h, _⟩; cases h
    | cons a as ih =>
      rintro hm ⟨b, hb, hu⟩
      rw [foldS]
      by_cases ha : a.usage = u
      · rw [h a (hm a (by simp)) ha]
      · rw [editVertexAttr_other format (editable a (hm a (by simp))) (fun hh => ha hh.1)]
        refine ih (fun x hx => hm x (by simp [hx])) ⟨b, ?_, hu⟩
        rcases List.mem_cons.1 hb with rfl | hb
        · exact absurd hu ha
        · exact hb
  exact key _ (fun _ h => h) has

end Bf2
