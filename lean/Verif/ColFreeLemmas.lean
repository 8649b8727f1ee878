import Verif.ColFreeSpec
import Verif.FreeLemmas

/-! # Lemmas on free items of collision meshes -/

namespace Bf2

local notation "W" => BitVec 32

variable {F φ : Type} {pl : Plat}

theorem swaps_sshorts : ∀ {l : List Int} {ys : List Item}, List.Forall₂ Swap ((l.map .sshort).map free) ys →
    ∃ l' : List Int, l'.map .sshort = ys ∧ l'.length = l.length
  | [], _, .nil => ⟨[], rfl, rfl⟩
  | _ :: _, _, .cons h1 h => by
    obtain ⟨w, rfl⟩ := blank_sshort.1 (swap_free.1 h1)
    obtain ⟨l', rfl, hl⟩ := swaps_sshorts h
    exact ⟨w :: l', rfl, by simp [hl]⟩

theorem sshorts_swap : ∀ {l l' : List Int}, l'.length = l.length →
    List.Forall₂ Swap ((l.map .sshort).map free) (l'.map .sshort)
  | [], [], _ => .nil
  | _ :: _, _ :: _, h => .cons (swap_free.2 rfl) (sshorts_swap (by simpa using h))

theorem swaps_longs : ∀ {l : List Int} {ys : List Item}, List.Forall₂ Swap ((l.map .long).map free) ys →
    ∃ l' : List Int, l'.map .long = ys ∧ l'.length = l.length
  | [], _, .nil => ⟨[], rfl, rfl⟩
  | _ :: _, _, .cons h1 h => by
    obtain ⟨w, rfl⟩ := blank_long.1 (swap_free.1 h1)
    obtain ⟨l', rfl, hl⟩ := swaps_longs h
    exact ⟨w :: l', rfl, by simp [hl]⟩

theorem longs_swap : ∀ {l l' : List Int}, l'.length = l.length →
    List.Forall₂ Swap ((l.map .long).map free) (l'.map .long)
  | [], [], _ => .nil
  | _ :: _, _ :: _, h => .cons (swap_free.2 rfl) (longs_swap (by simpa using h))

theorem swaps_face {f : FileFace} {ys : List Item} (h : List.Forall₂ Swap (f.items.map free) ys) :
    ∃ f' : FileFace, f'.items = ys := by
  obtain ⟨l', rfl, hl⟩ := swaps_sshorts (l := [f.v1, f.v2, f.v3, f.material]) h
  match l', hl with
  | [x, y, z, w], _ => exact ⟨⟨x, y, z, w⟩, rfl⟩

theorem face_swap (f f' : FileFace) : List.Forall₂ Swap (f.items.map free) f'.items :=
  sshorts_swap (l := [f.v1, f.v2, f.v3, f.material]) (l' := [f'.v1, f'.v2, f'.v3, f'.material]) rfl

theorem swaps_y {y : ColY W} {ys : List Item} (h : List.Forall₂ Swap (y.items.map free) ys) :
    ∃ y' : ColY W, y'.items = ys := by
  obtain _ | ⟨k1, _ | ⟨k2, _ | ⟨k3, _ | ⟨k4, _ | ⟨k5, _ | _⟩⟩⟩⟩⟩ := h
  obtain ⟨n1, rfl⟩ := blank_word.1 (swap_free.1 k1)
  obtain ⟨n2, rfl⟩ := blank_sshort.1 (swap_free.1 k2)
  obtain ⟨n3, rfl⟩ := blank_sshort.1 (swap_free.1 k3)
  obtain ⟨n4, rfl⟩ := blank_long.1 (swap_free.1 k4)
  obtain ⟨n5, rfl⟩ := blank_long.1 (swap_free.1 k5)
  exact ⟨⟨n1, n2, n3, n4, n5⟩, rfl⟩

theorem y_swap (y y' : ColY W) : List.Forall₂ Swap (y.items.map free) y'.items :=
  .cons (swap_free.2 rfl) (.cons (swap_free.2 rfl) (.cons (swap_free.2 rfl) (.cons (swap_free.2 rfl)
    (.cons (swap_free.2 rfl) .nil))))

/-- A block of parts that are all free. -/
theorem swaps_block {α : Type} (I : α → List Item)
    (h : ∀ a ys, List.Forall₂ Swap ((I a).map free) ys → ∃ a', I a' = ys) {l : List α} {ys : List Item}
    (hs : List.Forall₂ Swap ((l.flatMap I).map free) ys) : ∃ l' : List α, l'.flatMap I = ys ∧ l'.length = l.length := by
  rw [List.map_flatMap] at hs
  obtain ⟨l', h1, h2⟩ := swaps_flat (R := fun _ _ => True) (fun a => (I a).map free) I
    (fun a ys ha => (h a ys ha).imp fun _ e => ⟨e, trivial⟩) l ys hs
  exact ⟨l', h1, h2.length_eq.symm⟩

theorem block_swap {α : Type} (I : α → List Item) (h : ∀ a a', List.Forall₂ Swap ((I a).map free) (I a'))
    {l l' : List α} (hl : l'.length = l.length) :
    List.Forall₂ Swap ((l.flatMap I).map free) (l'.flatMap I) := by
  rw [List.map_flatMap]
  refine flat_swap (R := fun _ _ => True) _ _ (fun a a' _ => h a a') ?_
  rw [List.forall₂_iff_get]
  exact ⟨hl.symm, fun _ _ _ => trivial⟩

theorem const_eq {α β : Type} (c : β) {l l' : List α} : l'.map (fun _ => c) = l.map (fun _ => c) ↔
    l'.length = l.length := by
  rw [List.map_const', List.map_const']
  exact ⟨fun h => by simpa using congrArg List.length h, fun h => by rw [h]⟩

theorem swaps_collod {version : Int} {l : ColLod W FileFace} {ys : List Item}
    (h : List.Forall₂ Swap (l.marked version) ys) :
    ∃ l' : ColLod W FileFace, l'.items version = ys ∧ l'.blank = l.blank := by
  unfold ColLod.marked at h
  obtain ⟨z1, z7, rfl, h, g7⟩ := swaps_split h
  obtain ⟨z1, z6, rfl, h, g6⟩ := swaps_split h
  obtain ⟨z1, z5, rfl, h, g5⟩ := swaps_split h
  obtain ⟨z1, z4, rfl, h, g4⟩ := swaps_split h
  obtain ⟨z1, z3, rfl, h, g3⟩ := swaps_split h
  obtain ⟨z1, z2, rfl, h, g2⟩ := swaps_split h
  have e1 : z1 = if 9 ≤ version then [.long l.coltype] else [] := by
    split at h
    · rename_i hv
      rw [if_pos hv]
      exact swaps_long h
    · rename_i hv
      rw [if_neg hv]
      cases h
      rfl
  obtain _ | ⟨k2, g2⟩ := g2
  obtain rfl := swap_fixed.1 k2
  obtain ⟨fs, rfl, hfs⟩ := swaps_block FileFace.items (fun _ _ => swaps_face) g2
  obtain _ | ⟨k3, g3⟩ := g3
  obtain rfl := swap_fixed.1 k3
  rw [List.map_append] at g3
  obtain ⟨w1, w2, rfl, g3, g3'⟩ := swaps_split g3
  obtain ⟨vs, rfl, hvs⟩ := swaps_block Vec3.items (fun _ _ => swaps_vec) g3
  obtain ⟨ids, rfl, hids⟩ := swaps_sshorts g3'
  simp only [List.map_append] at g4
  obtain ⟨x1, x5, rfl, g4, m5⟩ := swaps_split g4
  obtain ⟨x1, x4, rfl, g4, m4⟩ := swaps_split g4
  obtain ⟨x1, x3, rfl, g4, m3⟩ := swaps_split g4
  obtain ⟨x1, x2, rfl, m1, m2⟩ := swaps_split g4
  obtain ⟨v1, rfl⟩ := swaps_vec m1
  obtain ⟨v2, rfl⟩ := swaps_vec m2
  obtain ⟨v4, rfl⟩ := swaps_vec m4
  obtain ⟨v5, rfl⟩ := swaps_vec m5
  obtain _ | ⟨k4, _ | _⟩ := m3
  obtain ⟨u7, rfl⟩ := blank_byte.1 (swap_free.1 k4)
  obtain _ | ⟨k5, g5⟩ := g5
  obtain rfl := swap_fixed.1 k5
  obtain ⟨yd, rfl, hyd⟩ := swaps_block ColY.items (fun _ _ => swaps_y) g5
  obtain _ | ⟨k6, g6⟩ := g6
  obtain rfl := swap_fixed.1 k6
  obtain ⟨zd, rfl, hzd⟩ := swaps_sshorts g6
  obtain ⟨ad, rfl, had⟩ : ∃ ad : List Int, (if 10 ≤ version then .long l.anum :: ad.map .long else []) = z7 ∧
      ad.length = l.adata.length := by
    by_cases hv : 10 ≤ version
    · rw [if_pos hv] at g7
      obtain _ | ⟨k7, g7⟩ := g7
      obtain rfl := swap_fixed.1 k7
      obtain ⟨ad, rfl, had⟩ := swaps_longs g7
      exact ⟨ad, by rw [if_pos hv], had⟩
    · rw [if_neg hv] at g7
      cases g7
      exact ⟨l.adata, by rw [if_neg hv], rfl⟩
  refine ⟨{ l with faces := fs, vertices := vs, vertids := ids, min := v1, max := v2, u7 := u7, bmin := v4, bmax := v5, ydata := yd, zdata := zd, adata := ad }, ?_, ?_⟩
  · rw [e1]
    rfl
  · have e2 : vs.map (Vec3.map fun _ => ()) = l.vertices.map (Vec3.map fun _ => ()) :=
      (const_eq (⟨(), (), ()⟩ : Vec3 Unit)).2 hvs
    have e3 : yd.map ColY.blank = l.ydata.map ColY.blank := (const_eq (⟨(), 0, 0, 0, 0⟩ : ColY Unit)).2 hyd
    simp only [ColLod.blank, (const_eq ()).2 hfs, e2, e3, (const_eq (0 : Int)).2 hids, (const_eq (0 : Int)).2 hzd,
      (const_eq (0 : Int)).2 had]
    rfl

theorem collod_swap {version : Int} {l l' : ColLod W FileFace} (h : l'.blank = l.blank) :
    List.Forall₂ Swap (l.marked version) (l'.items version) := by
  unfold ColLod.blank at h
  simp only [ColLod.mk.injEq] at h
  obtain ⟨h1, h2, h3, h4, h5, h6, -, -, -, -, -, h7, h8, h9, h10, h11, h12⟩ := h
  unfold ColLod.marked ColLod.items
  rw [h1, h2, h4, h7, h9, h11]
  have n3 := (const_eq ()).1 h3
  have n5 : l'.vertices.length = l.vertices.length := by simpa using congrArg List.length h5
  have n8 : l'.ydata.length = l.ydata.length := by simpa using congrArg List.length h8
  refine List.rel_append (List.rel_append (List.rel_append (List.rel_append (List.rel_append (List.rel_append
    ?_ ?_) ?_) ?_) ?_) ?_) ?_
  · split
    · exact .cons (swap_fixed.2 rfl) .nil
    · exact .nil
  · exact .cons (swap_fixed.2 rfl) (block_swap _ face_swap n3)
  · refine .cons (swap_fixed.2 rfl) ?_
    rw [List.map_append]
    exact List.rel_append (block_swap _ vec_swap n5) (sshorts_swap ((const_eq (0 : Int)).1 h6))
  · simp only [List.map_append]
    exact List.rel_append (List.rel_append (List.rel_append (List.rel_append (vec_swap _ _) (vec_swap _ _))
      (show List.Forall₂ Swap ([Item.byte l.u7].map free) [Item.byte l'.u7] from .cons (swap_free.2 rfl) .nil))
      (vec_swap _ _)) (vec_swap _ _)
  · exact .cons (swap_fixed.2 rfl) (block_swap _ y_swap n8)
  · exact .cons (swap_fixed.2 rfl) (sshorts_swap ((const_eq (0 : Int)).1 h10))
  · split
    · exact .cons (swap_fixed.2 rfl) (longs_swap ((const_eq (0 : Int)).1 h12))
    · exact .nil

theorem swaps_colsub {version : Int} {s : ColSub W FileFace} {ys : List Item}
    (h : List.Forall₂ Swap (s.marked version) ys) :
    ∃ s' : ColSub W FileFace, s'.items version = ys ∧ s'.blank = s.blank := by
  obtain _ | ⟨k1, h⟩ := h
  obtain rfl := swap_fixed.1 k1
  obtain ⟨ls, rfl, hl⟩ := swaps_flat _ (ColLod.items version) (fun _ _ => swaps_collod) _ _ h
  exact ⟨⟨s.lodnum, ls⟩, rfl, by simp only [ColSub.blank, (map_same_iff _).2 hl]⟩

theorem colsub_swap {version : Int} {s s' : ColSub W FileFace} (h : s'.blank = s.blank) :
    List.Forall₂ Swap (s.marked version) (s'.items version) := by
  simp only [ColSub.blank, ColSub.mk.injEq] at h
  exact .cons (swap_fixed.2 (by rw [h.1])) (flat_swap (ColLod.marked version) (ColLod.items version)
    (fun _ _ => collod_swap) ((map_same_iff ColLod.blank).1 h.2))

theorem swaps_colgeom {version : Int} {s : ColGeom W FileFace} {ys : List Item}
    (h : List.Forall₂ Swap (s.marked version) ys) :
    ∃ s' : ColGeom W FileFace, s'.items version = ys ∧ s'.blank = s.blank := by
  obtain _ | ⟨k1, h⟩ := h
  obtain rfl := swap_fixed.1 k1
  obtain ⟨ls, rfl, hl⟩ := swaps_flat _ (ColSub.items version) (fun _ _ => swaps_colsub) _ _ h
  exact ⟨⟨s.subgeomnum, ls⟩, rfl, by simp only [ColGeom.blank, (map_same_iff _).2 hl]⟩

theorem colgeom_swap {version : Int} {s s' : ColGeom W FileFace} (h : s'.blank = s.blank) :
    List.Forall₂ Swap (s.marked version) (s'.items version) := by
  simp only [ColGeom.blank, ColGeom.mk.injEq] at h
  exact .cons (swap_fixed.2 (by rw [h.1])) (flat_swap (ColSub.marked version) (ColSub.items version)
    (fun _ _ => colsub_swap) ((map_same_iff ColSub.blank).1 h.2))

theorem swaps_colmesh {m : ColFile} {ys : List Item} (h : List.Forall₂ Swap m.marked ys) :
    ∃ m' : ColFile, m'.items = ys ∧ m'.blank = m.blank := by
  obtain ⟨z1, z2, rfl, h, g⟩ := swaps_split h
  obtain _ | ⟨k1, _ | ⟨k2, _ | ⟨k3, _ | _⟩⟩⟩ := h
  obtain ⟨u1, rfl⟩ := blank_long.1 (swap_free.1 k1)
  obtain rfl := swap_fixed.1 k2
  obtain rfl := swap_fixed.1 k3
  obtain ⟨gs, rfl, hg⟩ := swaps_flat _ (ColGeom.items m.version) (fun _ _ => swaps_colgeom) _ _ g
  exact ⟨⟨u1, m.version, m.geomnum, gs⟩, rfl, by simp only [ColMesh.blank, (map_same_iff _).2 hg]⟩

theorem colmesh_swap {m m' : ColFile} (h : m'.blank = m.blank) : List.Forall₂ Swap m.marked m'.items := by
  simp only [ColMesh.blank, ColMesh.mk.injEq] at h
  unfold ColMesh.marked ColMesh.items
  rw [h.2.1, h.2.2.1]
  have e : List.Forall₂ Swap [free (Item.long m.u1), fixed (.long m.version), fixed (.long m.geomnum)]
      [.long m'.u1, .long m.version, .long m.geomnum] :=
    .cons (swap_free.2 rfl) (.cons (swap_fixed.2 rfl) (.cons (swap_fixed.2 rfl) .nil))
  exact List.rel_append e (flat_swap (ColGeom.marked m.version) (ColGeom.items m.version) (fun _ _ => colgeom_swap)
      ((map_same_iff ColGeom.blank).1 h.2.2.2))

/-! ## Items -/

theorem ColLod.marked_items (version : Int) (l : ColLod W FileFace) :
    (l.marked version).map Prod.snd = l.items version := by
  unfold ColLod.marked ColLod.items
  rw [List.map_append, List.map_append, List.map_append, List.map_append, List.map_append, List.map_append,
    List.map_cons, List.map_cons, List.map_cons, List.map_cons, map_snd_free, map_snd_free, map_snd_free,
    map_snd_free, map_snd_free]
  congr 1
  · congr 5
    split <;> rfl
  · split
    · rw [List.map_cons, map_snd_free]
      rfl
    · rfl

theorem ColMesh.marked_items (m : ColFile) : m.marked.map Prod.snd = m.items := by
  unfold ColMesh.marked ColMesh.items
  rw [List.map_append, List.map_flatMap]
  congr 1
  refine List.flatMap_congr fun g _ => ?_
  unfold ColGeom.marked ColGeom.items
  rw [List.map_cons, List.map_flatMap]
  have : ∀ s ∈ g.subgeoms, (s.marked m.version).map Prod.snd = s.items m.version := by
    intro s _
    unfold ColSub.marked ColSub.items
    rw [List.map_cons, List.map_flatMap, List.flatMap_congr fun l _ => l.marked_items m.version]
    rfl
  rw [List.flatMap_congr this]
  rfl

/-! ## Consistent counts -/

theorem ColLod.wf_blank {version : Int} {l : ColLod F φ} : ColLodWF version l.blank ↔ ColLodWF version l := by
  have ha : ((l.adata.map fun _ => (0 : Int)) = []) ↔ l.adata = [] := List.map_eq_nil_iff
  constructor
  · rintro ⟨h1, h2, h3, h4, h5, h6, h7⟩
    simp only [ColLod.blank, List.length_map, List.map_eq_nil_iff] at h1 h2 h3 h4 h5 h6 h7
    exact ⟨h1, h2, h3, h4, h5, h6, h7⟩
  · rintro ⟨h1, h2, h3, h4, h5, h6, h7⟩
    refine ⟨h1, ?_, ?_, ?_, ?_, ?_, ?_⟩ <;>
      simp only [ColLod.blank, List.length_map, List.map_eq_nil_iff] <;> assumption

theorem ColSub.wf_blank {version : Int} {s : ColSub F φ} : ColSubWF version s.blank ↔ ColSubWF version s := by
  constructor
  · intro h
    exact ⟨by simpa [ColSub.blank] using h.count,
      fun l hl => ColLod.wf_blank.1 (h.lods _ (List.mem_map_of_mem hl))⟩
  · intro h
    refine ⟨by simpa [ColSub.blank] using h.count, fun l hl => ?_⟩
    obtain ⟨b, hb, rfl⟩ := List.mem_map.1 hl
    exact ColLod.wf_blank.2 (h.lods _ hb)

theorem ColGeom.wf_blank {version : Int} {g : ColGeom F φ} : ColGeomWF version g.blank ↔ ColGeomWF version g := by
  constructor
  · intro h
    exact ⟨by simpa [ColGeom.blank] using h.count,
      fun l hl => ColSub.wf_blank.1 (h.subgeoms _ (List.mem_map_of_mem hl))⟩
  · intro h
    refine ⟨by simpa [ColGeom.blank] using h.count, fun l hl => ?_⟩
    obtain ⟨b, hb, rfl⟩ := List.mem_map.1 hl
    exact ColSub.wf_blank.2 (h.subgeoms _ hb)

theorem ColMesh.wf_blank {m : ColMesh F φ} : ColWF m.blank ↔ ColWF m := by
  constructor
  · intro h
    exact ⟨by simpa [ColMesh.blank] using h.count,
      fun l hl => ColGeom.wf_blank.1 (h.geoms _ (List.mem_map_of_mem hl))⟩
  · intro h
    refine ⟨by simpa [ColMesh.blank] using h.count, fun l hl => ?_⟩
    obtain ⟨b, hb, rfl⟩ := List.mem_map.1 hl
    exact ColGeom.wf_blank.2 (h.geoms _ hb)

/-! ## Floats and faces do not matter -/

theorem ColLod.blank_map {G ψ : Type} (f : F → G) (g : φ → ψ) (l : ColLod F φ) : (l.map f g).blank = l.blank := by
  simp only [ColLod.blank, ColLod.map, List.map_map]
  rfl

theorem ColMesh.blank_map {G ψ : Type} (f : F → G) (g : φ → ψ) (m : ColMesh F φ) :
    (m.map f g).blank = m.blank := by
  simp only [ColMesh.blank, ColMesh.map, ColGeom.blank, ColGeom.map, ColSub.blank, ColSub.map, List.map_map,
    Function.comp_def, ColLod.blank_map]
  rfl

theorem block_mask {α β : Type} (f : α → β) (I : α → List Item) (J : β → List Item) (l : List α)
    (h : ∀ a, ((I a).map free).flatMap (Marked.mask pl) = ((J (f a)).map free).flatMap (Marked.mask pl)) :
    (((l.map f).flatMap J).map free).flatMap (Marked.mask pl) = ((l.flatMap I).map free).flatMap (Marked.mask pl) := by
  induction l with
  | nil => rfl
  | cons a l ih =>
    rw [List.map_cons, List.flatMap_cons, List.flatMap_cons, List.map_append, List.map_append, List.flatMap_append,
      List.flatMap_append, ih, h a]

theorem ColLod.mask_map (version : Int) (f : W → W) (g : FileFace → FileFace) (l : ColLod W FileFace) :
    ((l.map f g).marked version).flatMap (Marked.mask pl) = (l.marked version).flatMap (Marked.mask pl) := by
  have e1 := block_mask (pl := pl) g FileFace.items FileFace.items l.faces fun _ => rfl
  have e2 := block_mask (pl := pl) (Vec3.map f) Vec3.items Vec3.items l.vertices fun _ => rfl
  have e3 := block_mask (pl := pl) (ColY.map f) ColY.items ColY.items l.ydata fun _ => rfl
  have e4 : ∀ v : Vec3 W, ((v.map f).items.map free).flatMap (Marked.mask pl) =
    (v.items.map free).flatMap (Marked.mask pl) := fun _ => rfl
  unfold ColLod.marked ColLod.map
  simp only [List.map_append, List.flatMap_append, List.flatMap_cons, e1, e2, e3, e4]

theorem ColMesh.mask_map (f : W → W) (g : FileFace → FileFace) (m : ColFile) :
    (m.map f g).marked.flatMap (Marked.mask pl) = m.marked.flatMap (Marked.mask pl) := by
  unfold ColMesh.marked ColMesh.map
  rw [List.flatMap_append, List.flatMap_append, List.flatMap_map, List.flatMap_assoc, List.flatMap_assoc]
  congr 1
  refine List.flatMap_congr fun a _ => ?_
  unfold ColGeom.marked ColGeom.map
  rw [List.flatMap_cons, List.flatMap_cons, List.flatMap_map, List.flatMap_assoc, List.flatMap_assoc]
  congr 1
  refine List.flatMap_congr fun a _ => ?_
  unfold ColSub.marked ColSub.map
  rw [List.flatMap_cons, List.flatMap_cons, List.flatMap_map, List.flatMap_assoc, List.flatMap_assoc]
  congr 1
  exact List.flatMap_congr fun a _ => a.mask_map _ f g

theorem ColMesh.freeMask_map {G ψ : Type} (f : F → G) (g : φ → ψ) (m : ColMesh F φ) (pl : Plat) :
    (m.map f g).freeMask pl = m.freeMask pl := by
  unfold ColMesh.freeMask
  rw [ColMesh.map_map]
  rfl

theorem col_mask_of_marks (pl : Plat) (m : ColFile) :
    m.marked.flatMap (Marked.mask pl) = m.freeMask pl := (m.mask_map _ _).symm

end Bf2
