import Verif.OldHistorySpec
import Verif.OldHistoryLemmas
import Verif.OldScriptsLemmas
import Mathlib.Algebra.BigOperators.Group.List.Basic
import Verif.Props.OldTransform
import Verif.Props.OldRotate

/-!
# Lemmas on edit histories of the deprecated module
-/

namespace Bf2

variable {F : Type}

theorem Packed.announced {vs : Nat} {m : OldMesh F} (h : Packed vs m)
    (small : m.vertices.length ≤ 2 ^ 53) :
    (m.vertices.length : Int) = intDivMul m.vertstride m.vertformat m.vertnum := by
  obtain ⟨n, hn, hl⟩ := h.num
  rw [intDivMul_exact h.table.format h.table.stride (q := vs), hn, hl]
  · push_cast; ring
  · rw [hn, abs_of_nonneg (by positivity)]
    have : ((n * vs : Nat) : Int) ≤ 2 ^ 53 := by rw [← hl]; exact_mod_cast small
    push_cast at this
    linarith [mul_comm (n : Int) vs]

theorem Packed.not_one {vs o : Nat} {m : OldMesh F} {u : Int} (h : Packed vs m)
    (pos : Float3At m.vertformat m.vattrs u o) : m.vertices.length ≠ 1 := by
  obtain ⟨n, -, hl⟩ := h.num
  have := h.table.packs.fits h.table.format pos
  rw [hl]
  intro h1
  have := Nat.eq_one_of_mul_eq_one_left h1
  omega

/-- Lods that differ in bounds and materials only. -/
def LodLike (l l' : OldLod F) : Prop :=
  l'.materials.length = l.materials.length ∧
    { l' with min := l.min, max := l.max, materials := l.materials } = l

def GeomLike (g g' : OldGeom F) : Prop :=
  g'.lodnum = g.lodnum ∧ List.Forall₂ LodLike g.lods g'.lods

theorem OldLodWF.like {k : Kind} {v : Int} {l l' : OldLod F} (h : OldLodWF k v l) (hl : LodLike l l')
    (mats : ∀ a ∈ l'.materials, MatWF k v a) : OldLodWF k v l' := by
  obtain ⟨h1, h2⟩ := hl
  rw [← h2] at h
  exact ⟨h.pivot, h.rignum, h.rigs, h.bones, h.nodenum, h.nodes, by
    rw [h1]; exact h.materials, mats⟩

theorem OldWF.like {m m' : OldMesh F} {gs : List (OldGeom F)} (h : OldWF m)
    (sub : ∀ g ∈ gs, g ∈ m.geoms) (like : List.Forall₂ GeomLike gs m'.geoms)
    (kind : m'.kind = m.kind) (head : m'.head = m.head)
    (geomnum : m'.geoms.length = m'.geomnum.toNat)
    (mats : ∀ a ∈ m'.mats, MatWF m.kind m.head.version a)
    (vattrs : m'.vattrs = m.vattrs) (vertattribnum : m'.vertattribnum = m.vertattribnum)
    (vertformat : m'.vertformat = m.vertformat)
    (vertices : (m'.vertices.length : Int) = intDivMul m'.vertstride m'.vertformat m'.vertnum)
    (not_one : m'.vertices.length ≠ 1) (index : (m'.index.length : Int) = m'.indexnum)
    (u2 : m'.u2 = m.u2) : OldWF m' where
  geoms := geomnum
  lods := by
    intro g' hg'
    obtain ⟨i, hi⟩ := List.mem_iff_getElem?.1 hg'
    obtain ⟨g, hg, h1, h2⟩ := forall₂_getElem? like.flip hi
    rw [← h2.length_eq, h1]
    exact h.lods g (sub g (List.mem_of_getElem? hg))
  lod := by
    intro g' hg' l' hl'
    obtain ⟨i, hi⟩ := List.mem_iff_getElem?.1 hg'
    obtain ⟨g, hg, h1, h2⟩ := forall₂_getElem? like.flip hi
    obtain ⟨j, hj⟩ := List.mem_iff_getElem?.1 hl'
    obtain ⟨l, hl, h3⟩ := forall₂_getElem? h2.flip hj
    rw [kind, head]
    refine (h.lod g (sub g (List.mem_of_getElem? hg)) l (List.mem_of_getElem? hl)).like h3 fun a ha => ?_
    exact mats a (List.mem_flatMap.2 ⟨g', hg', List.mem_flatMap.2 ⟨l', hl', ha⟩⟩)
  vattrs := by rw [vattrs, vertattribnum]; exact h.vattrs
  vertformat := by rw [vertformat]; exact h.vertformat
  vertices := vertices
  not_one := not_one
  index := index
  u2 := by rw [kind, u2]; exact h.u2

theorem OldWF.mat {m : OldMesh F} (h : OldWF m) {a : Mat F} (ha : a ∈ m.mats) :
    MatWF m.kind m.head.version a := by
  obtain ⟨g, hg, ha⟩ := List.mem_flatMap.1 ha
  obtain ⟨l, hl, ha⟩ := List.mem_flatMap.1 ha
  exact (h.lod g hg l hl).each a ha

/-- Tiling depends on the ranges of the materials only. -/
theorem OldTiled.like {m m' : OldMesh F} (h : OldTiled m) (vstart : m'.mats.map Mat.vstart = m.mats.map Mat.vstart)
    (vnum : m'.mats.map Mat.vnum = m.mats.map Mat.vnum) (vertnum : m'.vertnum = m.vertnum) :
    OldTiled m' where
  nonneg := by
    intro a ha
    have : a.vnum ∈ m.mats.map Mat.vnum := by rw [← vnum]; exact List.mem_map_of_mem ha
    obtain ⟨b, hb, e⟩ := List.mem_map.1 this
    rw [← e]
    exact h.nonneg b hb
  start := by
    intro i a ha
    have h1 : (m.mats.map Mat.vstart)[i]? = some a.vstart := by
      rw [← vstart, List.getElem?_map, ha]; rfl
    rw [List.getElem?_map] at h1
    obtain ⟨b, hb, e⟩ := Option.map_eq_some_iff.1 h1
    rw [← e, h.start i b hb, List.map_take, List.map_take, vnum]
  total := by rw [vertnum, h.total, vnum]

theorem OldTiledIndex.like {m m' : OldMesh F} (h : OldTiledIndex m)
    (istart : m'.mats.map Mat.istart = m.mats.map Mat.istart)
    (inum : m'.mats.map Mat.inum = m.mats.map Mat.inum) (index : m'.index = m.index) :
    OldTiledIndex m' where
  nonneg := by
    intro a ha
    have : a.inum ∈ m.mats.map Mat.inum := by rw [← inum]; exact List.mem_map_of_mem ha
    obtain ⟨b, hb, e⟩ := List.mem_map.1 this
    rw [← e]
    exact h.nonneg b hb
  start := by
    intro i a ha
    have h1 : (m.mats.map Mat.istart)[i]? = some a.istart := by
      rw [← istart, List.getElem?_map, ha]; rfl
    rw [List.getElem?_map] at h1
    obtain ⟨b, hb, e⟩ := Option.map_eq_some_iff.1 h1
    rw [← e, h.start i b hb, List.map_take, List.map_take, inum]
  total := by rw [index, h.total, inum]

theorem forall₂_map_eq {α β γ : Type} {R : α → β → Prop} {f : α → γ} {g : β → γ} {l : List α}
    {r : List β} (h : List.Forall₂ R l r) (e : ∀ a b, R a b → g b = f a) : r.map g = l.map f := by
  induction h with
  | nil => rfl
  | cons hab _ ih => rw [List.map_cons, List.map_cons, ih, e _ _ hab]

/-! ## Vertices and bounds replaced -/

theorem OldOrderly.grown [FArith F] {vs p : Nat} {m : OldMesh F} (h : OldOrderly vs m) {l : List F}
    {gs : List (OldGeom F)} {b : Bool} (hl : l.length = m.vertices.length)
    (hg : BoundsGrown vs p { m with vertices := l, vertsList := b } gs) :
    OldOrderly vs { m with vertices := l, vertsList := b, geoms := gs } := by
  have hm := hg.mats
  have he : ({ m with vertices := l, vertsList := b, geoms := gs } : OldMesh F).mats =
      gs.flatMap OldGeom.mats := rfl
  have e1 := forall₂_map_eq (f := Mat.vstart) (g := Mat.vstart) hm (by
    rintro a a' ⟨_, _, _, _, -, -, rfl, -⟩; rfl)
  have e2 := forall₂_map_eq (f := Mat.vnum) (g := Mat.vnum) hm (by
    rintro a a' ⟨_, _, _, _, -, -, rfl, -⟩; rfl)
  have e3 := forall₂_map_eq (f := Mat.istart) (g := Mat.istart) hm (by
    rintro a a' ⟨_, _, _, _, -, -, rfl, -⟩; rfl)
  have e4 := forall₂_map_eq (f := Mat.inum) (g := Mat.inum) hm (by
    rintro a a' ⟨_, _, _, _, -, -, rfl, -⟩; rfl)
  have back : ∀ a' ∈ gs.flatMap OldGeom.mats, ∃ a ∈ m.mats, ∃ mn mx mn' mx', a.mmin = some mn ∧
      a.mmax = some mx ∧ a' = { a with mmin := some mn', mmax := some mx' } := by
    intro a' ha'
    obtain ⟨i, hi⟩ := List.mem_iff_getElem?.1 ha'
    obtain ⟨a, ha, mn, mx, mn', mx', h1, h2, h3, -⟩ := forall₂_getElem? hm.flip hi
    exact ⟨a, List.mem_of_getElem? ha, mn, mx, mn', mx', h1, h2, h3⟩
  have hp : Packed vs { m with vertices := l, vertsList := b, geoms := gs } :=
    ⟨h.packed.table, by simpa [hl] using h.packed.count⟩
  obtain ⟨o, ho⟩ := h.pos
  refine ⟨?_, hp, h.tiled.like e1 e2 rfl, h.tiledIndex.like e3 e4 rfl, ?_, h.pos, h.normal, h.tangent, by
    simpa [hl] using h.small⟩
  · refine h.wf.like (gs := m.geoms) (fun _ hg => hg) ?_ rfl rfl ?_ ?_ rfl rfl rfl ?_ ?_ h.wf.index rfl
    · exact hg.imp fun g g' ⟨h1, h2⟩ => ⟨h1, h2.imp fun l l' hl =>
        ⟨hl.mats.length_eq.symm, hl.rest⟩⟩
    · have := hg.length_eq
      exact this.symm.trans h.wf.geoms
    · intro a' ha'
      obtain ⟨a, ha, mn, mx, mn', mx', h1, h2, rfl⟩ := back a' ha'
      have := h.wf.mat ha
      exact ⟨this.alphamode, this.maps, by rw [← this.mmin, h1]; rfl, by rw [← this.mmax, h2]; rfl⟩
    · exact hp.announced (by simpa [hl] using h.small)
    · exact hp.not_one ho
  · intro a' ha'
    obtain ⟨a, ha, mn, mx, mn', mx', h1, h2, rfl⟩ := back a' ha'
    exact ⟨by simp, by simp⟩

/-! ## The other calls -/

/-- The same arrays as lists, and other vertex data. -/
theorem OldOrderly.arrays {vs : Nat} {m : OldMesh F} (h : OldOrderly vs m) {l : List F} {b c : Bool}
    (hl : l.length = m.vertices.length) :
    OldOrderly vs { m with vertices := l, vertsList := b, indexList := c } :=
  ⟨⟨h.wf.geoms, h.wf.lods, h.wf.lod, h.wf.vattrs, h.wf.vertformat, by simpa [hl] using h.wf.vertices,
    by simpa [hl] using h.wf.not_one, h.wf.index, h.wf.u2⟩,
    ⟨h.packed.table, by simpa [hl] using h.packed.count⟩, ⟨h.tiled.nonneg, h.tiled.start, h.tiled.total⟩,
    ⟨h.tiledIndex.nonneg, h.tiledIndex.start, h.tiledIndex.total⟩, h.bounds, h.pos, h.normal, h.tangent,
    by simpa [hl] using h.small⟩

/-- The geoms replaced by ones that differ in the maps of materials only, and not in their number. -/
theorem OldOrderly.maps {vs : Nat} {m : OldMesh F} (h : OldOrderly vs m) {gs : List (OldGeom F)}
    (like : List.Forall₂ (fun g g' : OldGeom F => g'.lodnum = g.lodnum ∧
      List.Forall₂ (fun l l' : OldLod F => l' = { l with materials := l'.materials } ∧
        List.Forall₂ (fun a a' : Mat F => a' = { a with maps := a'.maps } ∧
          a'.maps.length = a.maps.length) l.materials l'.materials) g.lods g'.lods) m.geoms gs) :
    OldOrderly vs { m with geoms := gs } := by
  have hm : List.Forall₂ (fun a a' : Mat F => a' = { a with maps := a'.maps } ∧
      a'.maps.length = a.maps.length) m.mats ({ m with geoms := gs } : OldMesh F).mats :=
    List.rel_flatMap (R := fun g g' : OldGeom F => g'.lodnum = g.lodnum ∧
      List.Forall₂ (fun l l' : OldLod F => l' = { l with materials := l'.materials } ∧
        List.Forall₂ (fun a a' : Mat F => a' = { a with maps := a'.maps } ∧
          a'.maps.length = a.maps.length) l.materials l'.materials) g.lods g'.lods) like
      fun g g' hg => List.rel_flatMap (R := fun l l' : OldLod F =>
        l' = { l with materials := l'.materials } ∧
        List.Forall₂ (fun a a' : Mat F => a' = { a with maps := a'.maps } ∧
          a'.maps.length = a.maps.length) l.materials l'.materials) hg.2 fun l l' hl => hl.2
  have e1 := forall₂_map_eq (f := Mat.vstart) (g := Mat.vstart) hm (by
    rintro a a' ⟨e, -⟩; rw [e])
  have e2 := forall₂_map_eq (f := Mat.vnum) (g := Mat.vnum) hm (by
    rintro a a' ⟨e, -⟩; rw [e])
  have e3 := forall₂_map_eq (f := Mat.istart) (g := Mat.istart) hm (by
    rintro a a' ⟨e, -⟩; rw [e])
  have e4 := forall₂_map_eq (f := Mat.inum) (g := Mat.inum) hm (by
    rintro a a' ⟨e, -⟩; rw [e])
  have back : ∀ a' ∈ ({ m with geoms := gs } : OldMesh F).mats, ∃ a ∈ m.mats,
      a' = { a with maps := a'.maps } ∧ a'.maps.length = a.maps.length := by
    intro a' ha'
    obtain ⟨i, hi⟩ := List.mem_iff_getElem?.1 ha'
    obtain ⟨a, ha, h1⟩ := forall₂_getElem? hm.flip hi
    exact ⟨a, List.mem_of_getElem? ha, h1⟩
  have hp : Packed vs { m with geoms := gs } := ⟨h.packed.table, h.packed.count⟩
  refine ⟨?_, hp, h.tiled.like e1 e2 rfl, h.tiledIndex.like e3 e4 rfl, ?_, h.pos, h.normal, h.tangent,
    h.small⟩
  · refine h.wf.like (gs := m.geoms) (fun _ hg => hg) ?_ rfl rfl ?_ ?_ rfl rfl rfl h.wf.vertices
      h.wf.not_one h.wf.index rfl
    · exact like.imp fun g g' ⟨h1, h2⟩ => ⟨h1, h2.imp fun l l' hl =>
        ⟨hl.2.length_eq.symm, by rw [hl.1]⟩⟩
    · exact like.length_eq.symm.trans h.wf.geoms
    · intro a' ha'
      obtain ⟨a, ha, h1, h2⟩ := back a' ha'
      have := h.wf.mat ha
      exact ⟨by rw [h1]; exact this.alphamode, by rw [h2, this.maps, h1], by rw [h1]; exact this.mmin,
        by rw [h1]; exact this.mmax⟩
  · intro a' ha'
    obtain ⟨a, ha, h1, -⟩ := back a' ha'
    rw [h1]
    exact h.bounds a ha

theorem forall₂_set {α : Type} {R : α → α → Prop} (refl : ∀ a, R a a) {l : List α} {i : Nat} {a b : α}
    (hi : l[i]? = some a) (h : R a b) : List.Forall₂ R l (l.set i b) := by
  refine forall₂_of_getElem? (by simp) fun j x y hx hy => ?_
  by_cases hj : i = j
  · subst hj
    rw [hi] at hx
    cases hx
    have hlt := (List.getElem?_eq_some_iff.1 hi).1
    rw [List.getElem?_set_self hlt] at hy
    cases hy
    exact h
  · rw [List.getElem?_set_ne hj, hx] at hy
    cases hy
    exact refl _

theorem forall₂_refl' {α : Type} {R : α → α → Prop} (refl : ∀ a, R a a) (l : List α) :
    List.Forall₂ R l l := by
  induction l with
  | nil => exact .nil
  | cons a l ih => exact .cons (refl a) ih

theorem OldOrderly.rename {vs : Nat} {m : OldMesh F} (h : OldOrderly vs m) (gi li ai qi : Int)
    (path : List Nat) : OldOrderly vs (renameTexture m gi li ai qi path).1 ∧
      OldSameFormat m (renameTexture m gi li ai qi path).1 := by
  by_cases ascii : ∀ c ∈ path, c < 128
  · by_cases no : ∃ i j k q g l a, Names m.geoms.length gi i ∧ m.geoms[i]? = some g ∧
        Names g.lods.length li j ∧ g.lods[j]? = some l ∧ Names l.materials.length ai k ∧
        l.materials[k]? = some a ∧ Names a.maps.length qi q
    · obtain ⟨i, j, k, q, g, l, a, hi, hg, hj, hl, hk, ha, hq⟩ := no
      rw [C98_rename_texture ascii hi hg hj hl hk ha hq]
      refine ⟨h.maps (forall₂_set (fun g => ⟨rfl, forall₂_refl' (fun l => ⟨rfl, forall₂_refl'
        (fun a => ⟨rfl, rfl⟩) _⟩) _⟩) hg ⟨rfl, forall₂_set (fun l => ⟨rfl, forall₂_refl'
        (fun a => ⟨rfl, rfl⟩) _⟩) hl ⟨rfl, forall₂_set (fun a => ⟨rfl, rfl⟩) ha ⟨rfl, by simp⟩⟩⟩),
        ⟨rfl, rfl, rfl, rfl, rfl, rfl, rfl, rfl⟩⟩
    · rw [C98_refused.2 ascii no]
      exact ⟨h, ⟨rfl, rfl, rfl, rfl, rfl, rfl, rfl, rfl⟩⟩
  · push Not at ascii
    rw [C98_refused.1 ascii]
    exact ⟨h, ⟨rfl, rfl, rfl, rfl, rfl, rfl, rfl, rfl⟩⟩

theorem OldOrderly.delete {vs : Nat} {m : OldMesh F} (h : OldOrderly vs m) {j : Nat} {g : OldGeom F}
    {a : Mat F} (hg : m.geoms[j]? = some g) (first : g.First a) (vertsList : m.vertsList = true)
    (indexList : m.indexList = true) :
    (deleteGeomId m j).2 = none ∧ OldOrderly vs (deleteGeomId m j).1 ∧
      OldSameFormat m (deleteGeomId m j).1 := by
  obtain ⟨m', h1, h2, h3, hp, ht, hti⟩ := C96_delete_geom h.packed h.tiled h.tiledIndex vertsList
    indexList h.small hg first
  rw [h1]
  refine ⟨rfl, ?_, ⟨by rw [h2], by rw [h2], by rw [h2], by rw [h2], by rw [h2], by rw [h2],
    by rw [h2], by rw [h2]⟩⟩
  have hm : List.Forall₂ (OldMatKept vs m m')
      (({ m with geoms := m.geoms.eraseIdx j } : OldMesh F).mats) m'.mats :=
    List.rel_flatMap (R := OldGeomKept vs m m') h3 fun g g' hg =>
      List.rel_flatMap (R := OldLodKept vs m m') hg.2 fun l l' hl => hl.2
  have hsub : ∀ g ∈ m.geoms.eraseIdx j, g ∈ m.geoms := fun g hg => List.mem_of_mem_eraseIdx hg
  have back : ∀ a' ∈ m'.mats, ∃ a ∈ m.mats, a' = { a with vstart := a'.vstart, istart := a'.istart } := by
    intro a' ha'
    obtain ⟨i, hi⟩ := List.mem_iff_getElem?.1 ha'
    obtain ⟨a, ha, h1⟩ := forall₂_getElem? hm.flip hi
    obtain ⟨g, hg, ha⟩ := List.mem_flatMap.1 (List.mem_of_getElem? ha)
    exact ⟨a, List.mem_flatMap.2 ⟨g, hsub g hg, ha⟩, h1.fields⟩
  have hattrs : m'.vattrs = m.vattrs := by rw [h2]
  have hvf : m'.vertformat = m.vertformat := by rw [h2]
  have hlen : m'.vertices.length ≤ m.vertices.length := by
    have h4 : m'.vertnum ≤ m.vertnum := by
      rw [h2]
      have : 0 ≤ (g.mats.map Mat.vnum).sum := List.sum_nonneg (by
        intro x hx
        obtain ⟨b, hb, rfl⟩ := List.mem_map.1 hx
        exact h.tiled.nonneg b (List.mem_flatMap.2 ⟨g, List.mem_of_getElem? hg, hb⟩))
      show m.vertnum - _ ≤ m.vertnum
      omega
    have e1 := hp.count
    have e2 := h.packed.count
    have : (m'.vertices.length : Int) ≤ m.vertices.length := by
      rw [e1, e2]; exact mul_le_mul_of_nonneg_right h4 (by positivity)
    exact_mod_cast this
  obtain ⟨o, ho⟩ := h.pos
  have ho' : Float3At m'.vertformat m'.vattrs 0 o := by rw [hattrs, hvf]; exact ho
  refine ⟨?_, hp, ht, hti, ?_, ⟨o, ho'⟩, by rw [hattrs, hvf]; exact h.normal,
    by rw [hattrs, hvf]; exact h.tangent, hlen.trans h.small⟩
  · refine h.wf.like hsub (h3.imp fun g g' hg => ⟨hg.1, hg.2.imp fun l l' hl =>
      ⟨hl.2.length_eq.symm, by rw [hl.1]⟩⟩) (by rw [h2]) (by rw [h2]) ?_ ?_ hattrs (by rw [h2]) hvf
      (hp.announced (hlen.trans h.small)) (hp.not_one ho') ?_ (by rw [h2])
    · have hj := (List.getElem?_eq_some_iff.1 hg).1
      have e1 : m'.geomnum = m.geomnum - 1 := by rw [h2]
      rw [← h3.length_eq, List.length_eraseIdx_of_lt hj, e1, h.wf.geoms]
      omega
    · intro a' ha'
      obtain ⟨a, ha, e⟩ := back a' ha'
      have := h.wf.mat ha
      rw [e]
      exact ⟨this.alphamode, this.maps, this.mmin, this.mmax⟩
    · have e1 : m'.indexnum = m.indexnum - (g.mats.map Mat.inum).sum := by rw [h2]
      have e2 : (m.mats.map Mat.inum).sum = (m'.mats.map Mat.inum).sum + (g.mats.map Mat.inum).sum := by
        have e3 := forall₂_map_eq (f := Mat.inum) (g := Mat.inum) hm (by
          rintro a a' ⟨e, -, -⟩; rw [e])
        rw [e3]
        have hsplit : m.geoms = m.geoms.take j ++ g :: m.geoms.drop (j + 1) := by
          obtain ⟨hj, e⟩ := List.getElem?_eq_some_iff.1 hg
          rw [← e, ← List.drop_eq_getElem_cons hj, List.take_append_drop]
        have hleft : (m.mats.map Mat.inum).sum = ((m.geoms.take j).flatMap OldGeom.mats |>.map Mat.inum).sum +
            (g.mats.map Mat.inum).sum + ((m.geoms.drop (j + 1)).flatMap OldGeom.mats |>.map Mat.inum).sum := by
          have : m.mats = m.geoms.flatMap OldGeom.mats := rfl
          rw [this, hsplit]
          simp only [List.flatMap_append, List.flatMap_cons, List.map_append, List.sum_append]
          rw [← hsplit]
          ring
        have hright : (({ m with geoms := m.geoms.eraseIdx j } : OldMesh F).mats.map Mat.inum).sum =
            ((m.geoms.take j).flatMap OldGeom.mats |>.map Mat.inum).sum +
            ((m.geoms.drop (j + 1)).flatMap OldGeom.mats |>.map Mat.inum).sum := by
          have : ({ m with geoms := m.geoms.eraseIdx j } : OldMesh F).mats =
            (m.geoms.eraseIdx j).flatMap OldGeom.mats := rfl
          rw [this, List.eraseIdx_eq_take_drop_succ]
          simp only [List.flatMap_append, List.map_append, List.sum_append]
        rw [hleft, hright]
        ring
      rw [hti.total, e1, ← h.wf.index, h.tiledIndex.total, e2]
      ring
  · intro a' ha'
    obtain ⟨a, ha, e⟩ := back a' ha'
    rw [e]
    exact h.bounds a ha

theorem OldOrderly.merge [FArith F] [LawfulLt F] {vs : Nat} {m other : OldMesh F}
    (h : OldOrderly vs m) (h' : OldOrderly vs other) (attrs : m.vattrs = other.vattrs)
    (static : m.kind.isStatic = true ∨ other.kind.isStatic = true) (counts : OldSameCounts m other)
    (small : m.vertices.length + other.vertices.length ≤ 2 ^ 53) :
    (oldMerge m other).2 = none ∧ OldOrderly vs (oldMerge m other).1 ∧
      OldSameFormat m (oldMerge m other).1 := by
  obtain ⟨o, ho⟩ := h.pos
  have ids : ∀ x : OldMesh F, OldOrderly vs x → x.ids.length * vs = x.vertices.length := by
    intro x hx
    obtain ⟨n, hn, hl⟩ := hx.packed.num
    rw [hx.tiled.ids hn, List.length_range, hl]
  have hsum : (m.ids.length + other.ids.length) * vs = m.vertices.length + other.vertices.length := by
    rw [Nat.add_mul, ids m h, ids other h']
  obtain ⟨m', h1, h2, hp, ht, hti, h3, h4⟩ := C91_merge_concatenates (p := o)
    ⟨h.packed, h'.packed, attrs, static, counts, h.tiled.exist, h'.tiled.exist, h.tiledIndex.exist,
      h'.tiledIndex.exist⟩ ho h.bounds (by rw [hsum]; exact small)
  rw [h1]
  refine ⟨rfl, ?_, ⟨by rw [h2], by rw [h2], by rw [h2], by rw [h2], by rw [h2], by rw [h2],
    by rw [h2], by rw [h2]⟩⟩
  have hattrs : m'.vattrs = m.vattrs := by rw [h2]
  have hvf : m'.vertformat = m.vertformat := by rw [h2]
  have ho' : Float3At m'.vertformat m'.vattrs 0 o := by rw [hattrs, hvf]; exact ho
  have hlen1 : m'.mats.length = m.mats.length := by
    have := congrArg List.sum (forall₂_map_eq (f := fun g : OldGeom F => g.mats.length)
      (g := fun g : OldGeom F => g.mats.length) h3 (by
        rintro g g' ⟨-, e⟩
        unfold OldGeom.mats
        rw [List.length_flatMap, List.length_flatMap]
        exact congrArg List.sum (forall₂_map_eq e fun l l' hl => hl.mats)))
    have e : ∀ x : OldMesh F, x.mats.length = (x.geoms.map fun g => g.mats.length).sum := by
      intro x
      show (x.geoms.flatMap OldGeom.mats).length = _
      rw [List.length_flatMap]
    rw [e, e, this]
  have hlen2 : other.mats.length = m.mats.length := by
    have := congrArg List.sum (forall₂_map_eq (f := fun g : OldGeom F => g.mats.length)
      (g := fun g : OldGeom F => g.mats.length) counts (by
        rintro g g' e
        unfold OldGeom.mats
        rw [List.length_flatMap, List.length_flatMap]
        exact congrArg List.sum (forall₂_map_eq e fun l l' hl => hl.symm)))
    have e : ∀ x : OldMesh F, x.mats.length = (x.geoms.map fun g => g.mats.length).sum := by
      intro x
      show (x.geoms.flatMap OldGeom.mats).length = _
      rw [List.length_flatMap]
    rw [e, e, this]
  have back : ∀ (i : Nat) a', m'.mats[i]? = some a' → ∃ a b, m.mats[i]? = some a ∧
      other.mats[i]? = some b ∧ OldMatMerged vs m other m' a b a' ∧ MatGrown vs o m' a a' := by
    intro i a' hi
    have hlt := (List.getElem?_eq_some_iff.1 hi).1
    have hm : m.mats[i]? = some (m.mats[i]'(by omega)) := List.getElem?_eq_getElem _
    have hb : other.mats[i]? = some (other.mats[i]'(by omega)) := List.getElem?_eq_getElem _
    obtain ⟨a'', h5, h6, h7⟩ := h4 i _ _ hm hb
    rw [hi] at h5
    cases h5
    exact ⟨_, _, hm, hb, h6, h7⟩
  have htotal : (m'.vertices.length : Int) = m.vertices.length + other.vertices.length := by
    have hz : m'.mats.map Mat.vnum =
        List.zipWith (· + ·) (m.mats.map Mat.vnum) (other.mats.map Mat.vnum) := by
      refine List.ext_getElem? fun i => ?_
      rw [List.getElem?_map, List.getElem?_zipWith, List.getElem?_map, List.getElem?_map]
      rcases hi : m'.mats[i]? with _ | a'
      · have : m.mats[i]? = none := by
          rw [List.getElem?_eq_none_iff] at hi ⊢; omega
        rw [this]
        rfl
      · obtain ⟨a, b, ha, hb, hm, -⟩ := back i a' hi
        rw [ha, hb, hm.fields]
        rfl
    have hs := congrArg List.sum hz
    rw [← List.sum_add_sum_eq_sum_zipWith_of_length_eq _ _ (by simp [hlen2]), ← ht.total,
      ← h.tiled.total, ← h'.tiled.total] at hs
    rw [hp.count, h.packed.count, h'.packed.count, hs]
    ring
  have hsmall : m'.vertices.length ≤ 2 ^ 53 := by
    have : m'.vertices.length = m.vertices.length + other.vertices.length := by exact_mod_cast htotal
    omega
  refine ⟨?_, hp, ht, hti, ?_, ⟨o, ho'⟩, by rw [hattrs, hvf]; exact h.normal,
    by rw [hattrs, hvf]; exact h.tangent, hsmall⟩
  · refine h.wf.like (gs := m.geoms) (fun _ hg => hg) (h3.imp fun g g' hg => ⟨hg.1, hg.2.imp
      fun l l' hl => ⟨hl.mats, hl.rest⟩⟩) (by rw [h2]) (by rw [h2]) ?_ ?_ hattrs (by rw [h2]) hvf
      (hp.announced hsmall) (hp.not_one ho') (by rw [h2]) (by rw [h2])
    · have e1 : m'.geomnum = m.geomnum := by rw [h2]
      rw [← h3.length_eq, e1]
      exact h.wf.geoms
    · intro a' ha'
      obtain ⟨i, hi⟩ := List.mem_iff_getElem?.1 ha'
      obtain ⟨a, b, ha, -, hm, mn, mx, mn', mx', e1, e2, e3, e4, -⟩ := back i a' hi
      have := h.wf.mat (List.mem_of_getElem? ha)
      refine ⟨?_, ?_, ?_, ?_⟩
      · rw [hm.fields]; exact this.alphamode
      · rw [hm.fields]; exact this.maps
      · rw [← this.mmin, e1, e3]; rfl
      · rw [← this.mmax, e2, e4]; rfl
  · intro a' ha'
    obtain ⟨i, hi⟩ := List.mem_iff_getElem?.1 ha'
    obtain ⟨a, b, ha, -, hm, mn, mx, mn', mx', e1, e2, e3, e4, -⟩ := back i a' hi
    rw [e3, e4]
    exact ⟨by simp, by simp⟩

theorem OldOrderly.edit {vs : Nat} {m : OldMesh F} (h : OldOrderly vs m) {o i : Nat} {u : Int}
    {data : List F} (editable : ∀ a ∈ m.vattrs, EditableAttr a)
    (usage : UsageAt m.vertformat m.vattrs u o) (vertsList : m.vertsList = true)
    (exist : (i : Int) < m.vertnum) (inside : o + data.length ≤ vs) :
    (editVertex m i u data).2 = none ∧ OldOrderly vs (editVertex m i u data).1 ∧
      OldSameFormat m (editVertex m i u data).1 := by
  obtain ⟨n, hn, hl⟩ := h.packed.num
  have hs := h.packed.table.small
  have fits : i * vs + o + data.length ≤ m.vertices.length := by
    rw [hl]
    have h1 : i + 1 ≤ n := by omega
    have h2 := Nat.mul_le_mul_right vs h1
    rw [Nat.add_mul, one_mul] at h2
    omega
  rw [C97_edit_vertex h.packed.table editable usage
    (le_trans (by omega : o ≤ 65535) (by norm_num)) vertsList exist fits]
  refine ⟨rfl, h.arrays ?_, ⟨rfl, rfl, rfl, rfl, rfl, rfl, rfl, rfl⟩⟩
  unfold overwritten
  simp only [List.length_append, List.length_take, List.length_drop]
  omega

/-- No call in `OldStep` breaks the order or changes the format; all but `rename_texture` succeed. -/
theorem OldOrderly.step [FArith F] [LawfulLt F] [Libm F] {vs : Nat} {m : OldMesh F}
    (h : OldOrderly vs m) {r : OldMesh F × Option Err} (s : OldStep vs m r) :
    (r.2 = none ∨ ∃ geom lod mat map path, r = renameTexture m geom lod mat map path) ∧
      OldOrderly vs r.1 ∧ OldSameFormat m r.1 := by
  obtain ⟨oP, hP⟩ := h.pos
  obtain ⟨oN, hN⟩ := h.normal
  obtain ⟨oT, hT⟩ := h.tangent
  cases s with
  | translate d rest =>
    obtain ⟨l, gs, e, hl, -, hg⟩ := C87_translate_tiled h.packed h.tiled hP h.bounds h.small d rest
    rw [e]
    exact ⟨.inl rfl, h.grown hl hg, ⟨rfl, rfl, rfl, rfl, rfl, rfl, rfl, rfl⟩⟩
  | rotate y p r rest defined =>
    obtain ⟨R, hR⟩ := C99_one_map y p r rest defined
    obtain ⟨l, gs, e, hl, -, -, hg⟩ := hR vs oP oN oT m h.packed h.tiled hP hN hT h.bounds h.small
    rw [e]
    exact ⟨.inl rfl, h.grown hl hg, ⟨rfl, rfl, rfl, rfl, rfl, rfl, rfl, rfl⟩⟩
  | rename gi li ai qi path => exact ⟨.inr ⟨_, _, _, _, _, rfl⟩, h.rename gi li ai qi path⟩
  | lists => exact ⟨.inl rfl, h.arrays rfl, ⟨rfl, rfl, rfl, rfl, rfl, rfl, rfl, rfl⟩⟩
  | delete hg first vertsList indexList =>
    obtain ⟨h1, h2⟩ := h.delete hg first vertsList indexList
    exact ⟨.inl h1, h2⟩
  | edit editable usage vertsList exist inside =>
    obtain ⟨h1, h2⟩ := h.edit editable usage vertsList exist inside
    exact ⟨.inl h1, h2⟩
  | merge order attrs static counts small =>
    obtain ⟨h1, h2⟩ := h.merge order attrs static counts small
    exact ⟨.inl h1, h2⟩

theorem OldSameFormat.trans {a b c : OldMesh F} (h : OldSameFormat a b) (h' : OldSameFormat b c) :
    OldSameFormat a c :=
  ⟨h'.1.trans h.1, h'.2.trans h.2, h'.3.trans h.3, h'.4.trans h.4, h'.5.trans h.5, h'.6.trans h.6,
    h'.7.trans h.7, h'.8.trans h.8⟩

theorem OldOrderly.history [FArith F] [LawfulLt F] [Libm F] {vs : Nat} {m m' : OldMesh F}
    (h : OldOrderly vs m) (hist : OldHistory vs m m') : OldOrderly vs m' ∧ OldSameFormat m m' := by
  induction hist with
  | refl => exact ⟨h, ⟨rfl, rfl, rfl, rfl, rfl, rfl, rfl, rfl⟩⟩
  | tail _ s ih =>
    obtain ⟨e, s⟩ := s
    obtain ⟨-, h1, h2⟩ := ih.1.step s
    exact ⟨h1, ih.2.trans h2⟩

theorem OldInRange.grown [FArith F] {vs p : Nat} {pl : Plat} {m : OldMesh F} (h : OldInRange pl m)
    {l : List F} {gs : List (OldGeom F)} {b : Bool}
    (hg : BoundsGrown vs p { m with vertices := l, vertsList := b } gs) :
    OldInRange pl { m with vertices := l, vertsList := b, geoms := gs } where
  head_u1 := h.head_u1
  version := h.version
  head_u3 := h.head_u3
  head_u4 := h.head_u4
  head_u5 := h.head_u5
  u1 := h.u1
  geomnum := h.geomnum
  lodnum := by
    intro g' hg'
    obtain ⟨i, hi⟩ := List.mem_iff_getElem?.1 hg'
    obtain ⟨g, hgi, h1, -⟩ := forall₂_getElem? hg.flip hi
    rw [h1]
    exact h.lodnum g (List.mem_of_getElem? hgi)
  vertattribnum := h.vertattribnum
  vattrs := h.vattrs
  vertformat := h.vertformat
  vertstride := h.vertstride
  vertnum := h.vertnum
  indexnum := h.indexnum
  index := h.index
  u2 := h.u2
  lods := by
    intro g' hg' l' hl'
    obtain ⟨i, hi⟩ := List.mem_iff_getElem?.1 hg'
    obtain ⟨g, hgi, -, h2⟩ := forall₂_getElem? hg.flip hi
    obtain ⟨j, hj⟩ := List.mem_iff_getElem?.1 hl'
    obtain ⟨l, hlj, h3⟩ := forall₂_getElem? h2.flip hj
    have hr := h.lods g (List.mem_of_getElem? hgi) l (List.mem_of_getElem? hlj)
    have hm := hr.mats
    rw [← h3.rest] at hr
    refine ⟨hr.rignum, hr.bonenum, hr.boneid, hr.nodenum, hr.matnum, fun a' ha' => ?_⟩
    obtain ⟨q, hq⟩ := List.mem_iff_getElem?.1 ha'
    obtain ⟨a, haq, _, _, _, _, -, -, rfl, -⟩ := forall₂_getElem? h3.mats.flip hq
    have ha := hm a (List.mem_of_getElem? haq)
    exact ⟨ha.alphamode, ha.fxfile, ha.technique, ha.mapnum, ha.maps, ha.vstart, ha.istart, ha.inum,
      ha.vnum, ha.u4, ha.u5⟩

end Bf2
