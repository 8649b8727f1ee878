import Verif.OldLemmas

/-!
# What `VisMesh.save` writes
-/

namespace Bf2

variable {F : Type} [FCodec F]

theorem write_each {α : Type} {f : α → Out} {g : α → Bytes} {l : List α}
    (h : ∀ a ∈ l, f a = .write (g a)) : Out.each f l = .write (l.flatMap g) := by
  induction l with
  | nil => rfl
  | cons a l ih =>
    rw [Out.each, h a (by simp), ih fun b hb => h b (by simp [hb])]
    rfl

theorem all_map {α : Type} (f : α → Out) (l : List α) : Out.all (l.map f) = Out.each f l := by
  induction l with
  | nil => rfl
  | cons a l ih => rw [List.map, Out.all, Out.each, ih]

theorem fitsLong_of {pl : Plat} {v : Int} (h : IsLong pl v) : fitsSigned pl.longSize v = true := by
  by_contra hc
  rw [← writeLong_err] at h
  unfold writeLong at h
  rw [if_neg hc] at h
  cases h

theorem fitsShort_of {v : Int} (h : IsShort v) : fitsShort v = true := by
  unfold fitsShort
  unfold IsShort at h
  simp only [Bool.and_eq_true, decide_eq_true_eq]
  omega

theorem packLongs_eq {pl : Plat} {vs : List Int} (h : ∀ v ∈ vs, IsLong pl v) :
    packLongs pl vs = Out.each (writeLong pl) vs := by
  unfold packLongs
  rw [if_pos (List.all_eq_true.2 fun v hv => fitsLong_of (h v hv)), write_each]
  intro v hv
  unfold writeLong
  rw [if_pos (fitsLong_of (h v hv))]

theorem packShorts_eq {pl : Plat} {vs : List Int} (h : ∀ v ∈ vs, IsShort v) :
    packShorts pl vs = Out.each (writeShort pl) vs := by
  unfold packShorts
  rw [if_pos (List.all_eq_true.2 fun v hv => fitsShort_of (h v hv)), write_each]
  intro v hv
  unfold writeShort
  rw [if_pos (fitsShort_of (h v hv))]

theorem packFloats_eq {pl : Plat} (vs : List F) :
    packFloats pl vs = Out.each (writeFloat pl) vs := by
  unfold packFloats
  exact (write_each (f := writeFloat pl) fun v _ => rfl).symm

theorem fits_signed16 {v : Int} (h : IsShort v) : fitsSigned 2 (signed16 v) = true := by
  unfold fitsSigned signed16
  unfold IsShort at h
  rw [show (2 : Int) ^ (8 * 2 - 1) = 32768 from rfl]
  simp only [Bool.and_eq_true, decide_eq_true_eq]
  split <;> omega

theorem ofSigned_signed16 {v : Int} (h : IsShort v) : ofSigned 2 (signed16 v) = v.toNat := by
  unfold ofSigned signed16
  unfold IsShort at h
  rw [show (2 : Int) ^ (8 * 2) = 65536 from rfl]
  split <;> omega

theorem packSignedShorts_eq {pl : Plat} {vs : List Int} (h : ∀ v ∈ vs, IsShort v) :
    packSignedShorts pl (vs.map signed16) = Out.each (writeShort pl) vs := by
  unfold packSignedShorts
  rw [if_pos, List.flatMap_map, write_each]
  · intro v hv
    unfold writeShort
    rw [if_pos (fitsShort_of (h v hv)), ofSigned_signed16 (h v hv)]
  · rw [List.all_eq_true]
    intro x hx
    obtain ⟨v, hv, rfl⟩ := List.mem_map.1 hx
    exact fits_signed16 (h v hv)

theorem oldWriteVAttr_eq {pl : Plat} {a : VAttr} (h : IsShort a.flag ∧ IsShort a.offset ∧
    IsShort a.vartype ∧ IsShort a.usage) : oldWriteVAttr pl a.signed = exportVAttr pl a := by
  have := packSignedShorts_eq (pl := pl) (vs := [a.flag, a.offset, a.vartype, a.usage])
    (by simpa using h)
  rw [← all_map] at this
  exact this

theorem oldWriteHead_eq {pl : Plat} {h : Head} (hr : ∀ v ∈ [h.u1, h.version, h.u3, h.u4, h.u5],
    IsLong pl v) : oldWriteHead pl h = exportHead pl h := by
  have := packLongs_eq hr
  rw [← all_map] at this
  exact this

theorem table_eq {α : Type} {f : α → Out} {l : List α} {n : Int} (h : l.length = n.toNat) :
    Out.table f l n = Out.each f l := by
  unfold Out.table
  rw [← h]
  clear h
  induction l with
  | nil => rfl
  | cons a l ih =>
    rw [List.length_cons, List.range_succ_eq_map, Out.each, Out.each, each_map, ← ih]
    rfl

theorem each_const {f : Out} {α β : Type} {l : List α} {l' : List β} (h : l.length = l'.length) :
    Out.each (fun _ => f) l = Out.each (fun _ => f) l' := by
  induction l generalizing l' with
  | nil => cases l' with
    | nil => rfl
    | cons => simp at h
  | cons a l ih => cases l' with
    | nil => simp at h
    | cons b l' =>
      rw [Out.each, Out.each, ih (by simpa using h)]

/-- The lods are written without looking at `polycount`. -/
theorem oldWriteLodNodes_eq {pl : Plat} {v : Int} {k : Kind} {l : Lod F} (h : LodNodesWF k v l)
    (p : Int) : oldWriteLodNodes pl v k (l.old k p) = exportLodNodes pl v k l.lastNodes := by
  unfold oldWriteLodNodes exportLodNodes
  by_cases hk : k.isSkinned = true
  · simp only [Lod.old, Lod.lastNodes, hk, if_true]
    rfl
  · rw [Bool.not_eq_true] at hk
    by_cases hb : k.isBundled = true
    · simp only [Lod.old, Lod.lastNodes, hk, hb, if_true, Bool.false_eq_true, if_false]
      rfl
    · rw [Bool.not_eq_true] at hb
      have hn : Out.each (fun _ => writeMatrix4? pl l.nodes.getLast?) (List.range l.nodenum.toNat) =
          Out.each (writeMatrix4 pl) l.lastNodes.nodes := by
        have hlen := h.nodes
        simp only [hk, hb, Bool.or_self, Bool.false_eq_true, if_false] at hlen
        unfold Lod.lastNodes
        rcases hl : l.nodes.getLast? with _ | n
        · rw [List.getLast?_eq_none_iff] at hl
          rw [hl] at hlen
          rw [← hlen]
          rfl
        · simp only [each_map, writeMatrix4?]
          exact each_const (by simpa using hlen.symm)
      simp only [Lod.old, hk, hb, Bool.false_eq_true, if_false, Option.getD_some, hn]
      rfl

omit [FCodec F] in
theorem oldWriteLods_eq {f : OldLod F → Out} {g : Lod F → Out} {k : Kind}
    {prev : List (Mat F)} {ls : List (Lod F)} (h : ∀ l ∈ ls, ∀ p, f (l.old k p) = g l) :
    Out.each f (oldLods k prev ls) = Out.each g ls := by
  induction ls generalizing prev with
  | nil => rfl
  | cons l ls ih =>
    rw [oldLods, Out.each, Out.each, h l (by simp), ih fun x hx => h x (by simp [hx])]

omit [FCodec F] in
theorem oldWriteGeoms_eq {f : OldLod F → Out} {g : Lod F → Out} {k : Kind}
    {prev : List (Mat F)} {gs : List (Geom F)}
    (h : ∀ x ∈ gs, ∀ l ∈ x.lods, ∀ p, f (l.old k p) = g l) :
    Out.each (fun x => Out.each f x.lods) (oldGeoms k prev gs) =
      Out.each (fun x => Out.each g x.lods) gs := by
  induction gs generalizing prev with
  | nil => rfl
  | cons x gs ih =>
    rw [oldGeoms, Out.each, Out.each, ih fun y hy => h y (by simp [hy]),
      oldWriteLods_eq fun l hl => h x (by simp) l hl]

omit [FCodec F] in
theorem oldGeoms_length {k : Kind} {prev : List (Mat F)} {gs : List (Geom F)} :
    (oldGeoms k prev gs).length = gs.length := by
  induction gs generalizing prev with
  | nil => rfl
  | cons x gs ih => rw [oldGeoms, List.length_cons, List.length_cons, ih]

omit [FCodec F] in
theorem oldGeoms_lodnums {f : Int → Out} {k : Kind} {prev : List (Mat F)} {gs : List (Geom F)} :
    Out.each (fun g => f g.lodnum) (oldGeoms k prev gs) = Out.each (fun g => f g.lodnum) gs := by
  induction gs generalizing prev with
  | nil => rfl
  | cons x gs ih => rw [oldGeoms, Out.each, Out.each, ih]

/-- What the deprecated module writes for a mesh it holds as `m.old`. -/
theorem oldSave_old {pl : Plat} {m : Mesh F} (hw : MeshWF m) (hr : InRange pl m) :
    oldSave pl m.old = exportMesh pl { m.lastNodes with index := .many m.index.elems } := by
  have h1 : oldWriteHead pl m.head = exportHead pl m.head := oldWriteHead_eq (by
    simpa using ⟨hr.head_u1, hr.version, hr.head_u3, hr.head_u4, hr.head_u5⟩)
  have h2 : Out.table (fun g => writeLong pl g.lodnum) (oldGeoms m.kind [] m.geoms) m.geomnum =
      Out.each (fun g => writeLong pl g.lodnum) m.lastNodes.geoms := by
    rw [table_eq (by rw [oldGeoms_length, hw.geoms]), oldGeoms_lodnums]
    unfold Mesh.lastNodes
    rw [each_map]
    rfl
  have h3 : Out.table (oldWriteVAttr pl) (m.vattrs.map VAttr.signed) m.vertattribnum =
      Out.each (exportVAttr pl) m.vattrs := by
    rw [table_eq (by rw [List.length_map, hw.vattrs]), each_map]
    exact each_congr fun a ha => oldWriteVAttr_eq (hr.vattrs a ha)
  have h4 : packShorts pl m.index.elems = Out.each (writeShort pl) m.index.elems :=
    packShorts_eq hr.index
  have h5 : Out.each (fun g => Out.each (oldWriteLodNodes pl m.head.version m.kind) g.lods)
      (oldGeoms m.kind [] m.geoms) =
      Out.each (fun g => Out.each (exportLodNodes pl m.head.version m.kind) g.lods)
        m.lastNodes.geoms := by
    rw [oldWriteGeoms_eq (g := fun l => exportLodNodes pl m.head.version m.kind l.lastNodes)
      fun x hx l hl p => oldWriteLodNodes_eq ((hw.geom x hx).nodes l hl) p]
    unfold Mesh.lastNodes Geom.lastNodes
    simp only [each_map]
  have h6 : Out.each (fun g => Out.each (oldWriteLodMaterials pl m.head.version m.kind) g.lods)
      (oldGeoms m.kind [] m.geoms) =
      Out.each (fun g => Out.each (exportLodMaterials pl m.head.version m.kind) g.lods)
        m.lastNodes.geoms := by
    rw [oldWriteGeoms_eq (g := fun l => exportLodMaterials pl m.head.version m.kind l.lastNodes)
      fun x hx l hl p => rfl]
    unfold Mesh.lastNodes Geom.lastNodes
    simp only [each_map]
  unfold oldSave exportMesh
  simp only [Mesh.old, h1, h2, h3, h4, h5, h6, packFloats_eq, exportIndex]
  rfl

/-! ## Meshes with one node per lod repeated -/

omit [FCodec F] in
theorem Lod.lastNodes_eq_iff {l : Lod F} : l.lastNodes = l ↔ SameNodes l := by
  unfold Lod.lastNodes SameNodes
  rcases hl : l.nodes.getLast? with _ | n
  · rw [List.getLast?_eq_none_iff] at hl
    simp only [hl]
    constructor
    · intro _ a ha; cases ha
    · intro _; cases l; simp_all
  · have hn : n ∈ l.nodes := List.mem_of_getLast? hl
    constructor
    · intro h a ha b hb
      have h' : l.nodes.map (fun _ => n) = l.nodes := congrArg Lod.nodes h
      have key : ∀ x ∈ l.nodes, x = n := by
        intro x hx
        rw [← h'] at hx
        obtain ⟨_, _, rfl⟩ := List.mem_map.1 hx
        rfl
      rw [key a ha, key b hb]
    · intro h
      have : l.nodes.map (fun _ => n) = l.nodes := by
        conv_rhs => rw [← List.map_id l.nodes]
        exact List.map_congr_left fun x hx => h n hn x hx
      simp only [this]

omit [FCodec F] in
theorem map_eq_self_iff {α : Type} {f : α → α} {l : List α} : l.map f = l ↔ ∀ a ∈ l, f a = a := by
  induction l with
  | nil => simp
  | cons a l ih => simp [ih]

omit [FCodec F] in
theorem Mesh.lastNodes_eq_iff {m : Mesh F} : m.lastNodes = m ↔ ∀ l ∈ m.lods, SameNodes l := by
  have h1 : m.lastNodes = m ↔ m.geoms.map Geom.lastNodes = m.geoms := by
    constructor
    · exact congrArg Mesh.geoms
    · intro h; unfold Mesh.lastNodes; rw [h]
  have h2 : ∀ g : Geom F, g.lastNodes = g ↔ g.lods.map Lod.lastNodes = g.lods := by
    intro g
    constructor
    · exact congrArg Geom.lods
    · intro h; unfold Geom.lastNodes; rw [h]
  rw [h1, map_eq_self_iff]
  simp only [h2, map_eq_self_iff, Lod.lastNodes_eq_iff, Mesh.lods, List.mem_flatMap]
  constructor
  · rintro h l ⟨g, hg, hl⟩; exact h g hg l hl
  · intro h g hg l hl; exact h l ⟨g, hg, hl⟩

omit [FCodec F] in
theorem MeshWF.lastNodes {m : Mesh F} (h : MeshWF m) : MeshWF m.lastNodes where
  geoms := by simpa [Mesh.lastNodes] using h.geoms
  geom := by
    intro g hg
    obtain ⟨g', hg', rfl⟩ := List.mem_map.1 hg
    have hw := h.geom g' hg'
    refine ⟨by simpa [Geom.lastNodes] using hw.lods, fun l hl => ?_, fun l hl => ?_⟩
    · obtain ⟨l', hl', rfl⟩ := List.mem_map.1 hl
      have hn := hw.nodes l' hl'
      refine ⟨hn.pivot, hn.rigs, hn.bones, hn.no_rigs, ?_, hn.no_nodes⟩
      refine Eq.trans ?_ hn.nodes
      unfold Lod.lastNodes
      rcases hl : l'.nodes.getLast? with _ | n
      · rw [List.getLast?_eq_none_iff] at hl
        simp [hl]
      · simp
    · obtain ⟨l', hl', rfl⟩ := List.mem_map.1 hl
      have hn := hw.mats l' hl'
      exact ⟨hn.materials, hn.each⟩
  vattrs := h.vattrs
  vertformat := h.vertformat
  vertices := h.vertices
  not_one := h.not_one
  index := h.index
  u2 := h.u2

omit [FCodec F] in
theorem InRange.lastNodes {pl : Plat} {m : Mesh F} (h : InRange pl m) : InRange pl m.lastNodes := by
  obtain ⟨a1, a2, a3, a4, a5, b, c, d, e, f, g, i, j, k, l, n, o⟩ := h
  refine ⟨a1, a2, a3, a4, a5, b, c, ?_, e, f, g, i, j, k, l, n, ?_⟩
  · intro x hx
    obtain ⟨x', hx', rfl⟩ := List.mem_map.1 hx
    exact d x' hx'
  · intro x hx y hy
    obtain ⟨x', hx', rfl⟩ := List.mem_map.1 hx
    obtain ⟨y', hy', rfl⟩ := List.mem_map.1 hy
    have := o x' hx' y' hy'
    exact ⟨this.1, this.2, this.3, this.4, this.5, this.6⟩

omit [FCodec F] in
theorem Mesh.lastNodes_map {G : Type} (f : F → G) (m : Mesh F) :
    (m.map f).lastNodes = m.lastNodes.map f := by
  unfold Mesh.lastNodes Mesh.map
  simp only [List.map_map]
  congr 1
  refine List.map_congr_left fun g _ => ?_
  simp only [Function.comp, Geom.lastNodes, Geom.map, List.map_map]
  congr 1
  refine List.map_congr_left fun l _ => ?_
  simp only [Function.comp, Lod.lastNodes, Lod.map, List.getLast?_map]
  rcases l.nodes.getLast? with _ | n
  · simp
  · simp only [Option.map_some, List.map_map, Function.comp_def]

theorem fileBytes_elems (pl : Plat) (m : Mesh W) :
    exportMesh pl { m with index := .many m.index.elems } = fileBytes pl m := by
  have : indexBytes pl (.many m.index.elems) = indexBytes pl m.index := by
    cases hi : m.index with
    | many l => rfl
    | one a =>
      simp only [OneOrMany.elems, indexBytes, Out.each]
      unfold Out.seq
      rcases writeShort pl a with ⟨b, _ | e⟩ <;> simp [Out.nil]
  rw [exportMesh_many rfl]
  unfold fileBytes
  simp only [this]

end Bf2
