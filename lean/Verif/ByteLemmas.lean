import Verif.ByteSpec
import Verif.SizeLemmas
import Verif.HistoryLemmas
import Verif.TravLemmas
import Verif.RepoTestsLemmas

/-! # Lemmas on bytes that may differ -/

namespace Bf2

local notation "W" => BitVec 32

variable {F : Type}

theorem SameOutside.append {k l : List Bool} {a b c d : Bytes} (h : SameOutside k a b)
    (h' : SameOutside l c d) : SameOutside (k ++ l) (a ++ c) (b ++ d) := by
  refine ⟨by simp [h.left, h'.left], by simp [h.right, h'.right], fun p hp => ?_⟩
  by_cases hk : p < k.length
  · rw [List.getElem?_append_left hk] at hp
    rw [List.getElem?_append_left (by rw [h.left]; exact hk),
      List.getElem?_append_left (by rw [h.right]; exact hk)]
    exact h.same p hp
  · rw [List.getElem?_append_right (by omega)] at hp
    rw [List.getElem?_append_right (by rw [h.left]; omega),
      List.getElem?_append_right (by rw [h.right]; omega), h.left, h.right]
    exact h'.same _ hp

theorem SameOutside.refl {k : List Bool} {a : Bytes} (h : a.length = k.length) : SameOutside k a a :=
  ⟨h, h, fun _ _ => rfl⟩

theorem SameOutside.const (n : Nat) (c : Bool) {a b : Bytes} (ha : a.length = n) (hb : b.length = n)
    (h : c = false → a = b) : SameOutside (List.replicate n c) a b := by
  refine ⟨by simp [ha], by simp [hb], fun p hp => ?_⟩
  by_cases hn : p < n
  · rw [List.getElem?_replicate, if_pos hn] at hp
    cases c with
    | true => simp at hp
    | false => rw [h rfl]
  · rw [List.getElem?_eq_none (by omega), List.getElem?_eq_none (by omega)]

theorem SameOutside.flatMap {α β : Type} {R : α → β → Prop} (k : α → List Bool) (f : α → Bytes)
    (g : β → Bytes) {l : List α} {r : List β} (hR : List.Forall₂ R l r)
    (h : ∀ x ∈ l, ∀ y ∈ r, R x y → SameOutside (k x) (f x) (g y)) :
    SameOutside (l.flatMap k) (l.flatMap f) (r.flatMap g) := by
  induction hR with
  | nil => exact .refl rfl
  | cons h1 _ ih =>
    rw [List.flatMap_cons, List.flatMap_cons, List.flatMap_cons]
    exact (h _ (by simp) _ (by simp) h1).append
      (ih fun x hx y hy => h x (by simp [hx]) y (by simp [hy]))

theorem layout_flat {α : Type} (pl : Plat) (l : List α) (f : α → List Item) :
    layout pl (l.flatMap f) = l.flatMap fun a => layout pl (f a) := by
  unfold layout
  rw [List.flatMap_assoc]

/-! ## Other boxes -/

structure MatBox (box : Bool) (a a' : Mat F) : Prop where
  fields : a' = { a with mmin := a'.mmin, mmax := a'.mmax }
  same : box = false → a' = a

structure LodBox (box : Bool) (l l' : Lod F) : Prop where
  fields : l' = { l with min := l'.min, max := l'.max, materials := l'.materials }
  same : box = false → l'.min = l.min ∧ l'.max = l.max
  mats : List.Forall₂ (MatBox box) l.materials l'.materials

structure GeomBox (box : Bool) (g g' : Geom F) : Prop where
  fields : g' = { g with lods := g'.lods }
  lods : List.Forall₂ (LodBox box) g.lods g'.lods

theorem GeomBox.refl (box : Bool) (g : Geom F) : GeomBox box g g :=
  ⟨rfl, List.forall₂_same.2 fun _ _ => ⟨rfl, fun _ => ⟨rfl, rfl⟩,
    List.forall₂_same.2 fun _ _ => ⟨rfl, fun _ => rfl⟩⟩⟩

theorem GeomBounded.box {m : Mesh F} {g g' : Geom F} (h : GeomBounded m g g') : GeomBox true g g' :=
  ⟨h.fields, h.lods.imp fun _ _ hl => ⟨hl.fields, fun h => (by cases h),
    hl.mats.imp fun _ _ ha => ⟨ha.fields, fun h => (by cases h)⟩⟩⟩

theorem MatBox.map {G : Type} (f : F → G) {box : Bool} {a a' : Mat F} (h : MatBox box a a') :
    MatBox box (a.map f) (a'.map f) := by
  refine ⟨?_, fun hb => by rw [h.same hb]⟩
  have := h.fields
  generalize a'.mmin = p at this
  generalize a'.mmax = q at this
  subst this
  rfl

theorem LodBox.map {G : Type} (f : F → G) {box : Bool} {l l' : Lod F} (h : LodBox box l l') :
    LodBox box (l.map f) (l'.map f) := by
  refine ⟨?_, fun hb => ?_, ?_⟩
  · have := h.fields
    generalize l'.min = p at this
    generalize l'.max = q at this
    generalize l'.materials = r at this
    subst this
    rfl
  · obtain ⟨h1, h2⟩ := h.same hb
    simp [Lod.map, h1, h2]
  · show List.Forall₂ _ (l.materials.map _) (l'.materials.map _)
    rw [List.forall₂_map_left_iff, List.forall₂_map_right_iff]
    exact h.mats.imp fun _ _ ha => ha.map f

theorem GeomBox.map {G : Type} (f : F → G) {box : Bool} {g g' : Geom F} (h : GeomBox box g g') :
    GeomBox box (g.map f) (g'.map f) := by
  refine ⟨?_, ?_⟩
  · have := h.fields
    generalize g'.lods = r at this
    subst this
    rfl
  · show List.Forall₂ _ (g.lods.map _) (g'.lods.map _)
    rw [List.forall₂_map_left_iff, List.forall₂_map_right_iff]
    exact h.lods.imp fun _ _ ha => ha.map f

/-! ## Pieces of the file -/

variable (pl : Plat)

/-- The items of a material before its box. -/
def Mat.front (m : Mat W) : List Item :=
  optItems (fun a => [.long a]) m.alphamode ++ [.text m.fxfile, .text m.technique, .long m.mapnum] ++
    m.maps.map .text ++
    [.long m.vstart, .long m.istart, .long m.inum, .long m.vnum, .long m.u4, .long m.u5]

theorem Mat.items_split (m : Mat W) :
    m.items = m.front ++ (optItems Vec3.items m.mmin ++ optItems Vec3.items m.mmax) := by
  simp only [Mat.items, Mat.front, List.append_assoc]

theorem Mat.front_length (m : Mat W) :
    (layout pl m.front).length = m.info.size pl.cLong 0 := by
  have ha : (layout pl (optItems (fun a => [Item.long a]) m.alphamode)).length =
      pl.cLong * m.alphamode.toList.length := by
    cases m.alphamode with
    | none => rfl
    | some v => simp [optItems, layout_cons, layout_nil, Item.bytes, longBytes_length]
  simp only [Mat.front, layout_append, List.length_append, layout_texts, layout_cons, layout_nil, Item.bytes,
    longBytes_length, List.length_nil, MatInfo.size, Mat.info, ha]
  generalize pl.cLong = n
  generalize m.alphamode.toList.length = x
  rw [Nat.mul_add, Nat.mul_add]
  omega

theorem Mat.box_length {k : Kind} {version : Int} {a : Mat W} (wf : MatWF k version a) :
    (layout pl (optItems Vec3.items a.mmin ++ optItems Vec3.items a.mmax)).length = boxSize k version := by
  have h := Mat.layout_length pl wf
  rw [Mat.items_split, layout_append, List.length_append, Mat.front_length] at h
  simp only [MatInfo.size] at h
  omega

theorem MatBox.bytes {box : Bool} {k : Kind} {version : Int} {a a' : Mat W} (h : MatBox box a a')
    (wf : MatWF k version a) (wf' : MatWF k version a') :
    SameOutside (a.mask pl k version box) (layout pl a.items) (layout pl a'.items) := by
  rw [Mat.items_split, Mat.items_split, layout_append pl a.front, layout_append pl a'.front]
  refine .append ?_ (.const _ _ (Mat.box_length pl wf) (Mat.box_length pl wf') fun hb => by rw [h.same hb])
  have hf : a'.front = a.front := by rw [h.fields]; rfl
  rw [hf]
  exact .refl (by rw [Mat.front_length, List.length_replicate])

/-- What follows the box of a lod. -/
def Lod.back (k : Kind) (l : Lod W) : List Item :=
  optItems Vec3.items l.pivot ++
    if k.isSkinned then .long l.rignum :: l.rigs.flatMap Rig.items
    else .long l.nodenum :: l.nodes.flatMap Mat4.items

theorem Lod.back_length (k : Kind) (l : Lod W) : (layout pl (l.back k)).length =
    12 * l.pivot.toList.length + pl.cLong +
      if k.isSkinned then (l.rigs.map fun r => pl.cLong + (pl.cLong + 64) * r.bones.length).sum
      else 64 * l.nodes.length := by
  have hp : (layout pl (optItems Vec3.items l.pivot)).length = 12 * l.pivot.toList.length := by
    cases l.pivot with
    | none => rfl
    | some v => exact Vec3.layout_length pl v
  simp only [Lod.back, layout_append, List.length_append, hp]
  split_ifs
  · simp only [layout_cons, Item.bytes, List.length_append, longBytes_length, layout_flatMap, Rig.layout_length]
    omega
  · simp only [layout_cons, Item.bytes, List.length_append, longBytes_length, layout_flatMap, Mat4.layout_length]
    rw [sum_const _ _ 64 fun _ _ => rfl]
    omega

theorem LodBox.nodes {box : Bool} (k : Kind) {l l' : Lod W} (h : LodBox box l l') :
    SameOutside (l.nodeMask pl k box) (layout pl (l.nodeItems k)) (layout pl (l'.nodeItems k)) := by
  have e : ∀ l : Lod W, layout pl (l.nodeItems k) =
      layout pl (l.min.items ++ l.max.items) ++ layout pl (l.back k) := by
    intro l
    rw [← layout_append]
    simp only [Lod.nodeItems, Lod.back, List.append_assoc]
  have h24 : ∀ l : Lod W, (layout pl (l.min.items ++ l.max.items)).length = 24 := by
    intro l
    rw [layout_append, List.length_append, Vec3.layout_length, Vec3.layout_length]
  rw [e, e]
  refine .append (.const _ _ (h24 l) (h24 l') fun hb => ?_) ?_
  · rw [(h.same hb).1, (h.same hb).2]
  · have hf : l'.back k = l.back k := by rw [h.fields]; rfl
    rw [hf]
    exact .refl (by rw [Lod.back_length, List.length_replicate])

theorem LodBox.materials {box : Bool} {k : Kind} {version : Int} {l l' : Lod W} (h : LodBox box l l')
    (wf : LodMatsWF k version l) (wf' : LodMatsWF k version l') :
    SameOutside (l.matMask pl k version box) (layout pl l.matItems) (layout pl l'.matItems) := by
  unfold Lod.matItems Lod.matMask
  rw [layout_cons, layout_cons, layout_flat, layout_flat]
  refine .append ?_ (.flatMap _ _ _ h.mats fun a ha a' ha' hm => hm.bytes pl (wf.each a ha) (wf'.each a' ha'))
  have hf : l'.matnum = l.matnum := by rw [h.fields]
  rw [hf]
  exact .refl (by rw [List.length_replicate]; exact longBytes_length pl _)

theorem slots_same {slot : Nat → Bool} {v v' : List W} (hl : v'.length = v.length)
    (h : ∀ i, slot i = false → v'[i]? = v[i]?) :
    SameOutside ((List.range v.length).flatMap fun i => List.replicate 4 (slot i))
      (layout pl (v.map .word)) (layout pl (v'.map .word)) := by
  have e : ∀ u : List W, layout pl (u.map .word) = u.flatMap fun w => intBytes pl.bigEndian 4 w.toNat := by
    intro u
    unfold layout
    rw [List.flatMap_map]
    rfl
  rw [e, e]
  induction v using List.reverseRecOn generalizing v' with
  | nil =>
    have : v' = [] := List.length_eq_zero_iff.1 hl
    subst this
    exact .refl rfl
  | append_singleton v w ih =>
    obtain ⟨u, w', rfl⟩ : ∃ u w', v' = u ++ [w'] := by
      rcases List.eq_nil_or_concat v' with rfl | ⟨u, w', rfl⟩
      · simp at hl
      · exact ⟨u, w', by simp⟩
    have hlu : u.length = v.length := by simpa using hl
    rw [List.length_append, List.length_singleton, List.range_succ, List.flatMap_append,
      List.flatMap_append, List.flatMap_append]
    refine .append (ih hlu fun i hi => ?_) ?_
    · have := h i hi
      by_cases hiv : i < v.length
      · rwa [List.getElem?_append_left (by omega), List.getElem?_append_left hiv] at this
      · rw [List.getElem?_eq_none (by omega), List.getElem?_eq_none (by omega)]
    · simp only [List.flatMap_cons, List.flatMap_nil, List.append_nil]
      refine .const _ _ (intBytes_length _ _ _) (intBytes_length _ _ _) fun hs => ?_
      have := h v.length hs
      rw [← hlu, List.getElem?_concat_length, hlu, List.getElem?_concat_length] at this
      simp only [Option.some.injEq] at this
      rw [this]

/-! ## The whole file -/

/-- Two meshes that differ in vertex floats and boxes only. -/
structure MeshBox (slot : Nat → Bool) (box : Bool) (m m' : Mesh F) : Prop where
  fields : m' = { m with vertices := m'.vertices, geoms := m'.geoms }
  length : m'.vertices.length = m.vertices.length
  floats : ∀ i, slot i = false → m'.vertices[i]? = m.vertices[i]?
  geoms : List.Forall₂ (GeomBox box) m.geoms m'.geoms

theorem MeshBox.map {G : Type} (f : F → G) {slot : Nat → Bool} {box : Bool} {m m' : Mesh F}
    (h : MeshBox slot box m m') : MeshBox slot box (m.map f) (m'.map f) := by
  refine ⟨?_, ?_, fun i hi => ?_, ?_⟩
  · have := h.fields
    generalize m'.vertices = p at this
    generalize m'.geoms = q at this
    subst this
    rfl
  · show (m'.vertices.map f).length = (m.vertices.map f).length
    rw [List.length_map, List.length_map, h.length]
  · show (m'.vertices.map f)[i]? = (m.vertices.map f)[i]?
    rw [List.getElem?_map, List.getElem?_map, h.floats i hi]
  · show List.Forall₂ _ (m.geoms.map _) (m'.geoms.map _)
    rw [List.forall₂_map_left_iff, List.forall₂_map_right_iff]
    exact h.geoms.imp fun _ _ ha => ha.map f

theorem preamble_length (m : Mesh W) : (layout pl m.preamble.items).length = m.vertexStart pl := by
  simp only [Preamble.items, Mesh.preamble, layout_append, List.length_append,
    layout_flatMap, Head.layout_length, VAttr.layout_length, layout_cons, layout_nil, List.length_nil,
    layout_const pl _ Item.long pl.cLong (fun v => longBytes_length pl v), List.length_map]
  rw [sum_const _ _ 8 fun _ _ => rfl]
  simp only [Item.bytes, longBytes_length, intBytes_length, Mesh.vertexStart]
  rw [Nat.mul_add]
  omega

/-- The items between the vertices and the lods. -/
def Mesh.middle (m : Mesh W) : List Item :=
  [.long m.indexnum] ++ m.index.elems.map .short ++ (if m.kind.isSkinned then [] else [.long m.u2])

theorem middle_length (m : Mesh W) : (layout pl m.middle).length =
    pl.cLong * (1 + if m.kind.isSkinned then 0 else 1) + 2 * m.index.elems.length := by
  have hu : (layout pl (if m.kind.isSkinned then [] else [.long m.u2])).length =
      pl.cLong * (if m.kind.isSkinned then 0 else 1) := by
    split_ifs
    · rfl
    · simp [layout_cons, layout_nil, Item.bytes, longBytes_length]
  simp only [Mesh.middle, layout_append, List.length_append, layout_cons, layout_nil, List.length_nil,
    layout_const pl _ Item.short 2 (fun v => intBytes_length _ _ _), hu, Item.bytes, longBytes_length]
  rw [Nat.mul_add]
  omega

theorem items_split (m : Mesh W) : layout pl m.items =
    layout pl m.preamble.items ++ layout pl (m.vertices.map .word) ++ layout pl m.middle ++
      (m.geoms.flatMap fun g => g.lods.flatMap fun l => layout pl (l.nodeItems m.kind)) ++
      (m.geoms.flatMap fun g => g.lods.flatMap fun l => layout pl l.matItems) := by
  simp only [Mesh.items, Mesh.middle, layout_append, layout_flat, List.append_assoc]

theorem MeshBox.bytes {slot : Nat → Bool} {box : Bool} {m m' : Mesh W} (h : MeshBox slot box m m')
    (wf : MeshWF m) (wf' : MeshWF m') :
    SameOutside (m.mask pl slot box) (layout pl m.items) (layout pl m'.items) := by
  rw [items_split, items_split]
  have hk : m'.kind = m.kind := by rw [h.fields]
  have hv : m'.head = m.head := by rw [h.fields]
  have hp : m'.preamble.items = m.preamble.items := by
    have hn : m'.geoms.map (·.lodnum) = m.geoms.map (·.lodnum) := by
      have := h.geoms
      generalize m.geoms = a at this ⊢
      generalize m'.geoms = b at this ⊢
      induction this with
      | nil => rfl
      | cons h1 _ ih =>
        rw [List.map_cons, List.map_cons, ih]
        congr 1
        rw [h1.fields]
    unfold Mesh.preamble
    rw [hn]
    rw [h.fields]
  have hm : m'.middle = m.middle := by
    rw [h.fields]
    rfl
  rw [hp, hm]
  refine .append (.append (.append (.append ?_ ?_) ?_) ?_) ?_
  · exact .refl (by rw [preamble_length, List.length_replicate])
  · exact slots_same pl h.length h.floats
  · exact .refl (by rw [middle_length, List.length_replicate])
  · rw [hk]
    exact .flatMap _ _ _ h.geoms fun g _ g' _ hg => .flatMap _ _ _ hg.lods fun l _ l' _ hl => hl.nodes pl _
  · refine .flatMap _ _ _ h.geoms fun g hgm g' hgm' hg => .flatMap _ _ _ hg.lods fun l hlm l' hlm' hl => ?_
    refine hl.materials pl ((wf.geom g hgm).mats l hlm) ?_
    have := (wf'.geom g' hgm').mats l' hlm'
    rwa [hk, hv] at this

theorem Mesh.mask_map {G : Type} (f : F → G) (slot : Nat → Bool) (box : Bool) (m : Mesh F) :
    (m.map f).mask pl slot box = m.mask pl slot box := by
  have hn : ∀ l : Lod F, (l.map f).nodeMask pl m.kind box = l.nodeMask pl m.kind box := by
    intro l
    have h1 : (l.pivot.map (Vec3.map f)).toList.length = l.pivot.toList.length := by
      cases l.pivot <;> rfl
    have h2 : ((l.rigs.map (Rig.map f)).map fun r => pl.cLong + (pl.cLong + 64) * r.bones.length) =
        l.rigs.map fun r => pl.cLong + (pl.cLong + 64) * r.bones.length := by
      rw [List.map_map]
      apply List.map_congr_left
      intro r _
      simp [Rig.map]
    simp only [Lod.nodeMask, Lod.map, h1, h2, List.length_map]
  have hm : ∀ l : Lod F, (l.map f).matMask pl m.kind m.head.version box =
      l.matMask pl m.kind m.head.version box := by
    intro l
    simp only [Lod.matMask, Lod.map, List.flatMap_map]
    rfl
  have hs : (m.map f).vertexStart pl = m.vertexStart pl := by simp [Mesh.vertexStart, Mesh.map]
  unfold Mesh.mask
  rw [hs]
  simp only [Mesh.map, List.length_map, List.flatMap_map, Geom.map, hn, hm]
  rfl

theorem eq_of_forall₂ {α : Type} {l r : List α} (h : List.Forall₂ (fun a b => a = b) l r) : l = r := by
  induction h with
  | nil => rfl
  | cons h1 _ ih => rw [h1, ih]

theorem MeshBox.wf {slot : Nat → Bool} {m m' : Mesh F} (h : MeshBox slot false m m') (wf : MeshWF m) :
    MeshWF m' := by
  have hg : m'.geoms = m.geoms := by
    have hm : ∀ a a' : Mat F, MatBox false a a' → a = a' := fun a a' h => (h.same rfl).symm
    have hl : ∀ l l' : Lod F, LodBox false l l' → l = l' := by
      intro l l' h
      rw [h.fields, (h.same rfl).1, (h.same rfl).2,
        ← eq_of_forall₂ (h.mats.imp hm)]
    have hg : ∀ g g' : Geom F, GeomBox false g g' → g = g' := by
      intro g g' h
      rw [h.fields, ← eq_of_forall₂ (h.lods.imp hl)]
    exact (eq_of_forall₂ (h.geoms.imp hg)).symm
  have hf := h.fields
  rw [hg] at hf
  have hlen := h.length
  rw [hf]
  exact ⟨wf.geoms, wf.geom, wf.vattrs, wf.vertformat, by show (m'.vertices.length : Int) = m.announced; rw [hlen]; exact wf.vertices,
    by rw [hlen]; exact wf.not_one, wf.index, wf.u2⟩

theorem MeshBox.inRange {slot : Nat → Bool} {box : Bool} {m m' : Mesh F} (h : MeshBox slot box m m')
    (r : InRange pl m) : InRange pl m' := by
  have hf := h.fields
  have hg := h.geoms
  generalize m'.vertices = p at hf
  generalize m'.geoms = q at hf hg
  subst hf
  refine ⟨r.head_u1, r.version, r.head_u3, r.head_u4, r.head_u5, r.u1, r.geomnum, ?_, r.vertattribnum,
    r.vattrs, r.vertformat, r.vertstride, r.vertnum, r.indexnum, r.index, r.u2, ?_⟩
  · intro g' hg'
    obtain ⟨g, hgm, hG⟩ := forall₂_mem_right hg hg'
    rw [hG.fields]
    exact r.lodnum g hgm
  · intro g' hg' l' hl'
    obtain ⟨g, hgm, hG⟩ := forall₂_mem_right hg hg'
    obtain ⟨l, hlm, hL⟩ := forall₂_mem_right hG.lods hl'
    have hr := r.lods g hgm l hlm
    have hlf := hL.fields
    have hlmats := hL.mats
    generalize l'.min = x at hlf
    generalize l'.max = y at hlf
    generalize l'.materials = z at hlf hlmats
    subst hlf
    refine ⟨hr.rignum, hr.bonenum, hr.boneid, hr.nodenum, hr.matnum, fun a' ha' => ?_⟩
    obtain ⟨a, ham, hA⟩ := forall₂_mem_right hlmats ha'
    have := hr.mats a ham
    rw [hA.fields]
    exact ⟨this.1, this.2, this.3, this.4, this.5, this.6, this.7, this.8, this.9, this.10, this.11⟩

end Bf2
