import Verif.OldSaveSpec
import Verif.OldTransformLemmas
import Verif.OldRotateLemmas

/-!
# Lemmas on saving the mesh objects of the deprecated module
-/

namespace Bf2

variable {F : Type}

/-! ## The package mesh a mesh object shows -/

/-- The unsigned reading of a 16-bit word. -/
def unsigned16 (v : Int) : Int := if v < 0 then v + 65536 else v

def VAttr.unsigned (a : VAttr) : VAttr :=
  ⟨unsigned16 a.flag, unsigned16 a.offset, unsigned16 a.vartype, unsigned16 a.usage⟩

theorem signed_unsigned {v : Int} (h : IsSShort v) : signed16 (unsigned16 v) = v := by
  unfold IsSShort at h
  unfold signed16 unsigned16
  split <;> split <;> omega

theorem unsigned_short {v : Int} (h : IsSShort v) : IsShort (unsigned16 v) := by
  unfold IsSShort at h
  unfold IsShort unsigned16
  split <;> omega

def OldLod.shown (l : OldLod F) : Lod F where
  min := l.min
  max := l.max
  pivot := l.pivot
  rignum := l.rignum.getD 0
  rigs := l.rigs
  nodenum := l.nodenum.getD 0
  nodes := match l.nodes with
    | some n => List.replicate (l.nodenum.getD 0).toNat n
    | none => []
  matnum := l.matnum
  materials := l.materials

def OldGeom.shown (g : OldGeom F) : Geom F := ⟨g.lodnum, g.lods.map OldLod.shown⟩

def shownIndex : List Int → OneOrMany Int
  | [i] => .one i
  | l => .many l

theorem shownIndex_elems (l : List Int) : (shownIndex l).elems = l := by
  rcases l with _ | ⟨a, _ | ⟨b, l⟩⟩ <;> rfl

def OldMesh.shown (o : OldMesh F) : Mesh F where
  kind := o.kind
  head := o.head
  u1 := o.u1
  geomnum := o.geomnum
  geoms := o.geoms.map OldGeom.shown
  vertattribnum := o.vertattribnum
  vattrs := o.vattrs.map VAttr.unsigned
  vertformat := o.vertformat
  vertstride := o.vertstride
  vertnum := o.vertnum
  vertices := o.vertices
  indexnum := o.indexnum
  index := shownIndex o.index
  u2 := o.u2

theorem OldLodWF.shown_old {k : Kind} {v : Int} {l : OldLod F} (h : OldLodWF k v l) :
    l.shown.old k 0 = l.plain := by
  have h2 := h.rignum
  have h3 := h.nodenum
  have h4 := h.nodes
  rcases l with ⟨min, max, pivot, rignum, rigs, nodenum, nodes, matnum, materials, poly⟩
  simp only [OldLod.shown, Lod.old, OldLod.plain, OldLod.mk.injEq, true_and, and_true]
  refine ⟨?_, ?_, ?_⟩
  · rcases rignum with _ | n <;> rcases hk : k.isSkinned <;> simp_all
  · rcases nodenum with _ | n <;> rcases hk : k.isSkinned <;> simp_all
  · rcases nodes with _ | n
    · rfl
    · have : 0 < nodenum.getD 0 := by simp at h4; exact h4.2
      obtain ⟨j, hj⟩ : ∃ j, (nodenum.getD 0).toNat = j + 1 := ⟨(nodenum.getD 0).toNat - 1, by omega⟩
      simp only [hj, List.replicate_succ', List.getLast?_append, List.getLast?_singleton]
      rfl

theorem OldWF.shows {o : OldMesh F} (h : OldWF o)
    (attrs : ∀ a ∈ o.vattrs, IsSShort a.flag ∧ IsSShort a.offset ∧ IsSShort a.vartype ∧
      IsSShort a.usage) : Shows o o.shown := by
  unfold Shows OldMesh.plain Mesh.old OldMesh.shown
  have h1 : (o.vattrs.map VAttr.unsigned).map VAttr.signed = o.vattrs := by
    rw [List.map_map]
    conv_rhs => rw [← List.map_id o.vattrs]
    refine List.map_congr_left fun a ha => ?_
    obtain ⟨e1, e2, e3, e4⟩ := attrs a ha
    simp only [Function.comp, VAttr.signed, VAttr.unsigned, signed_unsigned e1, signed_unsigned e2,
      signed_unsigned e3, signed_unsigned e4]
    rfl
  have h2 : (oldGeoms o.kind [] (o.geoms.map OldGeom.shown)).map OldGeom.plain =
      o.geoms.map OldGeom.plain := by
    rw [oldGeoms_plain, List.map_map]
    refine List.map_congr_left fun g hg => ?_
    simp only [Function.comp, Geom.old0, OldGeom.shown, OldGeom.plain, List.map_map]
    congr 1
    exact List.map_congr_left fun l hl => (h.lod g hg l hl).shown_old
  simp only [h1, h2, shownIndex_elems]

theorem OldLodWF.shown {k : Kind} {v : Int} {l : OldLod F} (h : OldLodWF k v l) :
    LodNodesWF k v l.shown ∧ LodMatsWF k v l.shown := by
  refine ⟨⟨h.pivot, h.rigs, h.bones, fun hk => ?_, ?_, fun hk => ?_⟩, ⟨h.materials, h.each⟩⟩
  · have := h.rignum
    rw [hk] at this
    simp only [OldLod.shown]
    rw [Option.isSome_eq_false_iff.1 this |> Option.isNone_iff_eq_none.1]
    rfl
  · have h1 := h.nodenum
    have h2 := h.nodes
    rcases l with ⟨min, max, pivot, rignum, rigs, nodenum, nodes, matnum, materials, poly⟩
    simp only [OldLod.shown]
    rcases nodes with _ | n
    · simp only [List.length_nil]
      rcases hs : k.isSkinned <;> rcases hb : k.isBundled <;> simp_all
      omega
    · rcases hs : k.isSkinned <;> rcases hb : k.isBundled <;> simp_all
  · have := h.nodenum
    rw [hk] at this
    simp only [OldLod.shown]
    rw [Option.isSome_eq_false_iff.1 this |> Option.isNone_iff_eq_none.1]
    rfl

theorem OldWF.shown {o : OldMesh F} (h : OldWF o) : MeshWF o.shown where
  geoms := by simp [OldMesh.shown, h.geoms]
  geom := by
    intro g' hg'
    obtain ⟨g, hg, rfl⟩ := List.mem_map.1 hg'
    refine ⟨by simpa [OldGeom.shown] using h.lods g hg, fun l' hl' => ?_, fun l' hl' => ?_⟩
    · obtain ⟨l, hl, rfl⟩ := List.mem_map.1 hl'
      exact (h.lod g hg l hl).shown.1
    · obtain ⟨l, hl, rfl⟩ := List.mem_map.1 hl'
      exact (h.lod g hg l hl).shown.2
  vattrs := by simp [OldMesh.shown, h.vattrs]
  vertformat := h.vertformat
  vertices := h.vertices
  not_one := h.not_one
  index := by
    have := h.index
    unfold OldMesh.shown
    rcases hi : o.index with _ | ⟨a, _ | ⟨b, l⟩⟩
    · rw [hi] at this
      refine ⟨?_, ?_, ?_⟩ <;> simp at this ⊢ <;> omega
    · rw [hi] at this
      exact this.symm
    · rw [hi] at this
      refine ⟨?_, ?_, ?_⟩ <;> simp at this ⊢ <;> omega
  u2 := h.u2

theorem OldInRange.shown {pl : Plat} {o : OldMesh F} (h : OldInRange pl o) : InRange pl o.shown where
  head_u1 := h.head_u1
  version := h.version
  head_u3 := h.head_u3
  head_u4 := h.head_u4
  head_u5 := h.head_u5
  u1 := h.u1
  geomnum := h.geomnum
  lodnum := by
    intro g' hg'
    obtain ⟨g, hg, rfl⟩ := List.mem_map.1 hg'
    exact h.lodnum g hg
  vertattribnum := h.vertattribnum
  vattrs := by
    intro a' ha'
    obtain ⟨a, ha, rfl⟩ := List.mem_map.1 ha'
    obtain ⟨e1, e2, e3, e4⟩ := h.vattrs a ha
    exact ⟨unsigned_short e1, unsigned_short e2, unsigned_short e3, unsigned_short e4⟩
  vertformat := h.vertformat
  vertstride := h.vertstride
  vertnum := h.vertnum
  indexnum := h.indexnum
  index := by
    have : o.shown.index.elems = o.index := shownIndex_elems _
    rw [this]
    exact h.index
  u2 := h.u2
  lods := by
    intro g' hg' l' hl'
    obtain ⟨g, hg, rfl⟩ := List.mem_map.1 hg'
    obtain ⟨l, hl, rfl⟩ := List.mem_map.1 hl'
    have := h.lods g hg l hl
    have zero : IsLong pl 0 := by unfold IsLong; split <;> omega
    refine ⟨?_, this.bonenum, this.boneid, ?_, this.matnum, this.mats⟩
    · simp only [OldLod.shown]
      rcases hn : l.rignum with _ | n
      · exact zero
      · exact this.rignum n hn
    · simp only [OldLod.shown]
      rcases hn : l.nodenum with _ | n
      · exact zero
      · exact this.nodenum n hn

theorem OldMesh.shown_nodes (o : OldMesh F) : o.shown.lastNodes = o.shown := by
  rw [Mesh.lastNodes_eq_iff]
  intro l hl
  obtain ⟨g', hg', hl⟩ := List.mem_flatMap.1 hl
  obtain ⟨g, hg, rfl⟩ := List.mem_map.1 hg'
  obtain ⟨l, hl, rfl⟩ := List.mem_map.1 hl
  unfold SameNodes OldLod.shown
  rcases l.nodes with _ | n <;> simp +contextual

section
variable [FCodec F]

theorem packLongs_err {pl : Plat} {vs : List Int} :
    (packLongs pl vs).err = none ↔ ∀ v ∈ vs, IsLong pl v := by
  have h : ∀ v, fitsSigned pl.longSize v = true ↔ IsLong pl v := fun v => by
    rw [← writeLong_err]
    unfold writeLong
    split <;> simp_all
  unfold packLongs
  simp only [List.all_eq_true, h]
  split <;> simp_all

omit [FCodec F] in
theorem packSignedShorts_err {pl : Plat} {vs : List Int} :
    (packSignedShorts pl vs).err = none ↔ ∀ v ∈ vs, IsSShort v := by
  have h : ∀ v, fitsSigned 2 v = true ↔ IsSShort v := fun v => by
    unfold fitsSigned IsSShort
    simp only [Bool.and_eq_true, decide_eq_true_eq]
    norm_num
    omega
  have e : vs.all (fitsSigned 2) = true ↔ ∀ v ∈ vs, IsSShort v := by
    rw [List.all_eq_true]
    exact forall₂_congr fun v _ => h v
  rw [← e]
  unfold packSignedShorts
  split <;> simp_all

omit [FCodec F] in
theorem packShorts_err {pl : Plat} {vs : List Int} :
    (packShorts pl vs).err = none ↔ ∀ v ∈ vs, IsShort v := by
  have h : ∀ v, fitsShort v = true ↔ IsShort v := fun v => by
    unfold fitsShort IsShort
    simp only [Bool.and_eq_true, decide_eq_true_eq]
    omega
  unfold packShorts
  simp only [List.all_eq_true, h]
  split <;> simp_all

omit [FCodec F] in
theorem table_err {α : Type} {f : α → Out} {l : List α} {n : Int} (h : l.length = n.toNat) :
    (Out.table f l n).err = none ↔ ∀ a ∈ l, (f a).err = none := by
  unfold Out.table
  rw [each_err, ← h]
  constructor
  · intro hi a ha
    obtain ⟨i, hlt, rfl⟩ := List.getElem_of_mem ha
    have := hi i (List.mem_range.2 hlt)
    rwa [List.getElem?_eq_getElem hlt] at this
  · intro ha i hi
    have hlt := List.mem_range.1 hi
    rw [List.getElem?_eq_getElem hlt]
    exact ha _ (List.getElem_mem hlt)

theorem OldLodWF.nodes_err {pl : Plat} {k : Kind} {v : Int} {l : OldLod F} (h : OldLodWF k v l) :
    (oldWriteLodNodes pl v k l).err = none ↔ (∀ n, l.rignum = some n → IsLong pl n) ∧
      (∀ n, l.nodenum = some n → IsLong pl n) ∧
      ∀ r ∈ l.rigs, IsLong pl r.bonenum ∧ ∀ b ∈ r.bones, IsLong pl b.id := by
  have hp : (if v ≤ 6 then writeFloat3? pl l.pivot else Out.nil).err = none := by
    split
    · next hv => rw [writeFloat3?_err, h.pivot]; exact decide_eq_true hv
    · rfl
  unfold oldWriteLodNodes
  simp only [all_cons_err, writeFloat3_err, hp, true_and, all_nil_err, and_true]
  have h1 := h.rignum
  have h2 := h.nodenum
  have h3 := h.nodes
  rcases hk : k.isSkinned with _ | _
  · rw [hk] at h1 h2
    obtain ⟨n, hn⟩ := Option.isSome_iff_exists.1 h2
    have hr : l.rignum = none := by simpa using h1
    have hrigs : l.rigs = [] := by
      have := h.rigs
      rw [hr] at this
      exact List.eq_nil_of_length_eq_zero this
    have hn' : (if k.isBundled = true then Out.nil else Out.each (fun _ => writeMatrix4? pl l.nodes)
        (List.range (l.nodenum.getD 0).toNat)).err = none := by
      split
      · rfl
      · next hb =>
        rw [each_err]
        intro i hi
        have hi := List.mem_range.1 hi
        have : l.nodes.isSome = true := by
          rw [h3]
          simp only [Bool.not_eq_true] at hb
          simp only [hb, Bool.not_false, Bool.true_and, decide_eq_true_eq]
          omega
        obtain ⟨x, hx⟩ := Option.isSome_iff_exists.1 this
        rw [hx]
        rfl
    rw [hn] at hn'
    simp only [Bool.false_eq_true, if_false, all_cons_err, all_nil_err, and_true, hn, hr, hrigs]
    simp [writeLong?, writeLong_err]
    exact fun _ => hn'
  · rw [hk] at h1 h2
    obtain ⟨n, hn⟩ := Option.isSome_iff_exists.1 h1
    have hr : l.nodenum = none := by simpa using h2
    simp only [if_true, all_cons_err, all_nil_err, and_true, hn, hr, each_err, exportRig_err]
    simp [writeLong?, writeLong_err]

/-- A consistent mesh object is written without exception iff every integer fits its field. -/
theorem OldWF.save_err {pl : Plat} {o : OldMesh F} (h : OldWF o) :
    (oldSave pl o).err = none ↔ OldInRange pl o := by
  have hu : (if o.kind.isSkinned = true then Out.nil else writeLong pl o.u2).err = none ↔
      IsLong pl o.u2 := by
    split
    · next hk => simp [h.u2 hk, isLong_zero]
    · exact writeLong_err
  have hl : ((∀ g ∈ o.geoms, ∀ l ∈ g.lods,
        (oldWriteLodNodes pl o.head.version o.kind l).err = none) ∧
      ∀ g ∈ o.geoms, ∀ l ∈ g.lods, (oldWriteLodMaterials pl o.head.version o.kind l).err = none) ↔
      ∀ g ∈ o.geoms, ∀ l ∈ g.lods, OldLodInRange pl l := by
    simp only [oldWriteLodMaterials, all_cons_err, writeLong_err, all_nil_err, and_true, each_err]
    constructor
    · rintro ⟨h1, h2⟩ g hg l hl
      have hw := h.lod g hg l hl
      obtain ⟨a, b, c⟩ := hw.nodes_err.1 (h1 g hg l hl)
      obtain ⟨d, e⟩ := h2 g hg l hl
      exact ⟨a, fun r hr => (c r hr).1, fun r hr => (c r hr).2, b, d,
        fun x hx => (exportMat_err (hw.each x hx)).1 (e x hx)⟩
    · intro hh
      refine ⟨fun g hg l hl => ?_, fun g hg l hl => ?_⟩
      · have := hh g hg l hl
        exact (h.lod g hg l hl).nodes_err.2
          ⟨this.rignum, this.nodenum, fun r hr => ⟨this.bonenum r hr, this.boneid r hr⟩⟩
      · have := hh g hg l hl
        exact ⟨this.matnum, fun x hx =>
          (exportMat_err ((h.lod g hg l hl).each x hx)).2 (this.mats x hx)⟩
  have hv : (packFloats pl o.vertices).err = none := rfl
  unfold oldSave
  simp only [all_cons_err, all_nil_err, and_true, hv, hu, each_err, hl, table_err h.geoms,
    table_err h.vattrs, writeLong_err, writeByte_err, oldWriteHead, oldWriteVAttr, packLongs_err,
    packSignedShorts_err, packShorts_err, true_and, List.mem_cons, List.not_mem_nil, or_false,
    forall_eq_or_imp, forall_eq]
  constructor
  · rintro ⟨⟨a1, a2, a3, a4, a5⟩, b, c, d, e, f, g, i, j, k, l, n, p⟩
    exact ⟨a1, a2, a3, a4, a5, b, c, d, e, f, g, i, j, k, l, n, p⟩
  · rintro ⟨a1, a2, a3, a4, a5, b, c, d, e, f, g, i, j, k, l, n, p⟩
    exact ⟨⟨a1, a2, a3, a4, a5⟩, b, c, d, e, f, g, i, j, k, l, n, p⟩

end

/-- A consistent mesh object whose integers fit is saved, and the file loads. -/
theorem OldWF.save {pl : Plat} {o : OldMesh F64} (h : OldWF o) (hr : OldInRange pl o) :
    ∃ out, oldSave pl o = ⟨out, none⟩ ∧ load pl o.kind out = .ok (o.shown.map stored) := by
  obtain ⟨out, h1, h2⟩ := shows_save (h.shows hr.vattrs) h.shown hr.shown
  rw [OldMesh.shown_nodes] at h2
  exact ⟨out, h1, h2⟩

/-! ## Loaded meshes -/

theorem oldGeoms_mem {k : Kind} {prev : List (Mat F)} {gs : List (Geom F)} {g' : OldGeom F}
    (h : g' ∈ oldGeoms k prev gs) : ∃ g ∈ gs, ∃ p, g' = ⟨g.lodnum, oldLods k p g.lods⟩ := by
  induction gs generalizing prev with
  | nil => cases h
  | cons g gs ih =>
    rcases List.mem_cons.1 h with rfl | h
    · exact ⟨g, by simp, prev, rfl⟩
    · obtain ⟨g1, h1, h2⟩ := ih h
      exact ⟨g1, by simp [h1], h2⟩

theorem oldLods_mem {k : Kind} {prev : List (Mat F)} {ls : List (Lod F)} {l' : OldLod F}
    (h : l' ∈ oldLods k prev ls) : ∃ l ∈ ls, ∃ p, l' = l.old k p := by
  induction ls generalizing prev with
  | nil => cases h
  | cons l ls ih =>
    rcases List.mem_cons.1 h with rfl | h
    · exact ⟨l, by simp, _, rfl⟩
    · obtain ⟨l1, h1, h2⟩ := ih h
      exact ⟨l1, by simp [h1], h2⟩

theorem oldLods_length (k : Kind) (prev : List (Mat F)) (ls : List (Lod F)) :
    (oldLods k prev ls).length = ls.length := by
  induction ls generalizing prev with
  | nil => rfl
  | cons l ls ih => simp [oldLods, ih]

theorem old_lodWF {k : Kind} {v : Int} {l : Lod F} (h1 : LodNodesWF k v l) (h2 : LodMatsWF k v l)
    (p : Int) : OldLodWF k v (l.old k p) where
  pivot := h1.pivot
  rignum := by unfold Lod.old; rcases k.isSkinned <;> rfl
  rigs := by
    have := h1.rigs
    have h := h1.no_rigs
    unfold Lod.old
    rcases hk : k.isSkinned
    · rw [h hk] at this; simpa using this
    · simpa using this
  bones := h1.bones
  nodenum := by unfold Lod.old; rcases k.isSkinned <;> rfl
  nodes := by
    have h3 := h1.nodes
    unfold Lod.old
    rcases hn : l.nodes with _ | ⟨a, t⟩
    · rw [hn] at h3
      rcases hs : k.isSkinned <;> rcases hb : k.isBundled <;> simp_all
      omega
    · rw [hn] at h3
      have : (a :: t).getLast?.isSome = true := by simp
      rw [this]
      rcases hs : k.isSkinned <;> rcases hb : k.isBundled <;> simp_all
      omega
  materials := h2.materials
  each := h2.each

theorem MeshWF.old {m : Mesh F} (h : MeshWF m) : OldWF m.old where
  geoms := by simp [Mesh.old, oldGeoms_length, h.geoms]
  lods := by
    intro g' hg'
    obtain ⟨g, hg, p, rfl⟩ := oldGeoms_mem hg'
    simpa [oldLods_length] using (h.geom g hg).lods
  lod := by
    intro g' hg' l' hl'
    obtain ⟨g, hg, p, rfl⟩ := oldGeoms_mem hg'
    obtain ⟨l, hl, q, rfl⟩ := oldLods_mem hl'
    exact old_lodWF ((h.geom g hg).nodes l hl) ((h.geom g hg).mats l hl) q
  vattrs := by simp [Mesh.old, h.vattrs]
  vertformat := h.vertformat
  vertices := h.vertices
  not_one := h.not_one
  index := by
    have := h.index
    unfold Mesh.old
    rcases hi : m.index with a | l
    · rw [hi] at this
      simpa [OneOrMany.elems, IndexWF, eq_comm] using this
    · rw [hi] at this
      obtain ⟨h1, -, h2⟩ := this
      simp only [OneOrMany.elems]
      omega
  u2 := h.u2

theorem signed_range {v : Int} (h : IsShort v) : IsSShort (signed16 v) := by
  unfold IsShort at h
  unfold IsSShort signed16
  split <;> omega

theorem InRange.old {pl : Plat} {m : Mesh F} (h : InRange pl m) : OldInRange pl m.old where
  head_u1 := h.head_u1
  version := h.version
  head_u3 := h.head_u3
  head_u4 := h.head_u4
  head_u5 := h.head_u5
  u1 := h.u1
  geomnum := h.geomnum
  lodnum := by
    intro g' hg'
    obtain ⟨g, hg, p, rfl⟩ := oldGeoms_mem hg'
    exact h.lodnum g hg
  vertattribnum := h.vertattribnum
  vattrs := by
    intro a' ha'
    obtain ⟨a, ha, rfl⟩ := List.mem_map.1 ha'
    obtain ⟨e1, e2, e3, e4⟩ := h.vattrs a ha
    exact ⟨signed_range e1, signed_range e2, signed_range e3, signed_range e4⟩
  vertformat := h.vertformat
  vertstride := h.vertstride
  vertnum := h.vertnum
  indexnum := h.indexnum
  index := h.index
  u2 := h.u2
  lods := by
    intro g' hg' l' hl'
    obtain ⟨g, hg, p, rfl⟩ := oldGeoms_mem hg'
    obtain ⟨l, hl, q, rfl⟩ := oldLods_mem hl'
    have := h.lods g hg l hl
    refine ⟨fun n hn => ?_, this.bonenum, this.boneid, fun n hn => ?_, this.matnum, this.mats⟩
    · unfold Lod.old at hn
      simp at hn
      rw [← hn.2]; exact this.rignum
    · unfold Lod.old at hn
      simp at hn
      rw [← hn.2]; exact this.nodenum

end Bf2
