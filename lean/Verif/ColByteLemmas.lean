import Verif.ColByteSpec
import Verif.ColFreeLemmas
import Verif.FloatCodec
import Verif.ColMesh

/-! # Lemmas on the marked bytes of collision mesh files -/

namespace Bf2

local notation "W" => BitVec 32

variable {pl : Plat} {t : Touch}

theorem swap_mark {c : Bool} {i y : Item} : Swap (c, i) y ↔ if c then y.blank = i.blank else y = i := Iff.rfl

theorem fixed_self : ∀ l : List Item, List.Forall₂ Swap (l.map fixed) l
  | [] => .nil
  | _ :: l => .cons (swap_fixed.2 rfl) (fixed_self l)

/-- Words that only differ where signalling NaNs are marked. -/
def Touch.Near (t : Touch) (w w' : W) : Prop := t.nans = true ∧ SNaN w ∨ w' = w

theorem word_swap {w w' : W} (h : t.Near w w') : Swap (t.word w) (.word w') := by
  unfold Touch.word
  rw [swap_mark]
  rcases h with ⟨h1, h2⟩ | rfl
  · rw [h1, decide_eq_true h2]
    rfl
  · split <;> rfl

theorem vertex_word_swap {w w' : W} (h : t.vertices = true ∨ t.Near w w') :
    Swap (t.vertices || (t.word w).1, .word w) (.word w') := by
  rcases h with h | h
  · rw [swap_mark, h]
    rfl
  · have := word_swap h
    unfold Touch.word at this
    rw [swap_mark] at this ⊢
    split
    · rfl
    · next hn =>
      rw [Bool.or_eq_true, not_or] at hn
      rw [if_neg (show ¬ (t.nans && decide (SNaN w)) = true from hn.2)] at this
      exact this

/-- The lods agree in all that is not marked. -/
structure Touch.Lod (t : Touch) (l l' : ColLod W FileFace) : Prop where
  coltype : l'.coltype = l.coltype
  facenum : l'.facenum = l.facenum
  faces : List.Forall₂ (fun f f' : FileFace => f'.v1 = f.v1 ∧ f'.v2 = f.v2 ∧ f'.v3 = f.v3 ∧
    (t.materials = true ∨ f'.material = f.material)) l.faces l'.faces
  vertnum : l'.vertnum = l.vertnum
  vertices : List.Forall₂ (fun v v' : Vec3 W => t.vertices = true ∨ t.Near v.x v'.x ∧ t.Near v.y v'.y ∧ t.Near v.z v'.z)
    l.vertices l'.vertices
  vertids : l'.vertids = l.vertids
  min : t.Near l.min.x l'.min.x ∧ t.Near l.min.y l'.min.y ∧ t.Near l.min.z l'.min.z
  max : t.Near l.max.x l'.max.x ∧ t.Near l.max.y l'.max.y ∧ t.Near l.max.z l'.max.z
  u7 : l'.u7 = l.u7
  bmin : t.Near l.bmin.x l'.bmin.x ∧ t.Near l.bmin.y l'.bmin.y ∧ t.Near l.bmin.z l'.bmin.z
  bmax : t.Near l.bmax.x l'.bmax.x ∧ t.Near l.bmax.y l'.bmax.y ∧ t.Near l.bmax.z l'.bmax.z
  ynum : l'.ynum = l.ynum
  ydata : List.Forall₂ (fun y y' : ColY W => t.Near y.u1 y'.u1 ∧ y'.u2 = y.u2 ∧ y'.u3 = y.u3 ∧ y'.u4 = y.u4 ∧
    y'.u5 = y.u5) l.ydata l'.ydata
  znum : l'.znum = l.znum
  zdata : l'.zdata = l.zdata
  anum : l'.anum = l.anum
  adata : l'.adata = l.adata

theorem near_vec {v v' : Vec3 W} (h : t.Near v.x v'.x ∧ t.Near v.y v'.y ∧ t.Near v.z v'.z) :
    List.Forall₂ Swap (t.vec v) v'.items :=
  .cons (word_swap h.1) (.cons (word_swap h.2.1) (.cons (word_swap h.2.2) .nil))

theorem touched_lod {version : Int} {l l' : ColLod W FileFace} (h : t.Lod l l') :
    List.Forall₂ Swap (t.lod version l) (l'.items version) := by
  unfold Touch.lod ColLod.items
  rw [h.coltype, h.facenum, h.vertnum, h.vertids, h.u7, h.ynum, h.znum, h.zdata, h.anum, h.adata]
  refine List.rel_append (List.rel_append (List.rel_append (List.rel_append (List.rel_append (List.rel_append
    ?_ ?_) ?_) ?_) ?_) ?_) ?_
  · split
    · exact .cons (swap_fixed.2 rfl) .nil
    · exact .nil
  · refine .cons (swap_fixed.2 rfl) (flat_swap t.face FileFace.items ?_ h.faces)
    rintro f f' ⟨h1, h2, h3, h4⟩
    refine .cons (swap_fixed.2 (by rw [h1])) (.cons (swap_fixed.2 (by rw [h2])) (.cons (swap_fixed.2 (by rw [h3]))
      (.cons ?_ .nil)))
    rw [swap_mark]
    rcases h4 with h4 | h4
    · rw [h4]; rfl
    · rw [h4]; split <;> rfl
  · refine .cons (swap_fixed.2 rfl) (List.rel_append (flat_swap t.vertex Vec3.items ?_ h.vertices) (fixed_self _))
    intro v v' hv
    refine .cons (vertex_word_swap ?_) (.cons (vertex_word_swap ?_) (.cons (vertex_word_swap ?_) .nil))
    · exact hv.imp id fun h => h.1
    · exact hv.imp id fun h => h.2.1
    · exact hv.imp id fun h => h.2.2
  · exact List.rel_append (List.rel_append (List.rel_append (List.rel_append (near_vec h.min) (near_vec h.max))
      (fixed_self [.byte l.u7])) (near_vec h.bmin)) (near_vec h.bmax)
  · refine .cons (swap_fixed.2 rfl) (flat_swap t.ydata ColY.items ?_ h.ydata)
    rintro y y' ⟨h1, h2, h3, h4, h5⟩
    exact .cons (word_swap h1) (.cons (swap_fixed.2 (by rw [h2])) (.cons (swap_fixed.2 (by rw [h3]))
      (.cons (swap_fixed.2 (by rw [h4])) (.cons (swap_fixed.2 (by rw [h5])) .nil))))
  · exact .cons (swap_fixed.2 rfl) (fixed_self _)
  · split
    · exact .cons (swap_fixed.2 rfl) (fixed_self _)
    · exact .nil

/-- The meshes agree in all that is not marked. -/
structure Touch.Mesh (t : Touch) (m m' : ColFile) : Prop where
  u1 : m'.u1 = m.u1
  version : m'.version = m.version
  geomnum : m'.geomnum = m.geomnum
  geoms : List.Forall₂ (fun g g' : ColGeom W FileFace => g'.subgeomnum = g.subgeomnum ∧
    List.Forall₂ (fun s s' : ColSub W FileFace => s'.lodnum = s.lodnum ∧ List.Forall₂ t.Lod s.lods s'.lods)
      g.subgeoms g'.subgeoms) m.geoms m'.geoms

theorem touched_mesh {m m' : ColFile} (h : t.Mesh m m') : List.Forall₂ Swap (t.mesh m) m'.items := by
  unfold Touch.mesh ColMesh.items
  rw [h.u1, h.version, h.geomnum]
  refine List.rel_append (fixed_self [.long m.u1, .long m.version, .long m.geomnum]) ?_
  refine flat_swap (t.geom m.version) (ColGeom.items m.version) ?_ h.geoms
  rintro g g' ⟨h1, h2⟩
  refine .cons (swap_fixed.2 (by rw [h1])) (flat_swap (t.sub m.version) (ColSub.items m.version) ?_ h2)
  rintro s s' ⟨h3, h4⟩
  exact .cons (swap_fixed.2 (by rw [h3])) (flat_swap (t.lod m.version) (ColLod.items m.version)
    (fun _ _ => touched_lod) h4)

theorem map_fixed_snd (l : List Item) : (l.map fixed).map Prod.snd = l := by
  rw [List.map_map]
  exact List.map_id l

theorem Touch.lod_items (t : Touch) (version : Int) (l : ColLod W FileFace) :
    (t.lod version l).map Prod.snd = l.items version := by
  have e1 : ∀ v : Vec3 W, (t.vec v).map Prod.snd = v.items := fun _ => rfl
  have e2 : (l.vertices.flatMap t.vertex).map Prod.snd = l.vertices.flatMap Vec3.items := by
    rw [List.map_flatMap]; rfl
  have e3 : (l.faces.flatMap t.face).map Prod.snd = l.faces.flatMap FileFace.items := by
    rw [List.map_flatMap]; rfl
  have e4 : (l.ydata.flatMap t.ydata).map Prod.snd = l.ydata.flatMap ColY.items := by
    rw [List.map_flatMap]; rfl
  unfold Touch.lod ColLod.items
  simp only [List.map_append, List.map_cons, e1, e2, e3, e4, map_fixed_snd]
  congr 1
  · congr 5
    split <;> rfl
  · split
    · rw [List.map_cons, map_fixed_snd]
      rfl
    · rfl

theorem Touch.mesh_items (t : Touch) (m : ColFile) : (t.mesh m).map Prod.snd = m.items := by
  unfold Touch.mesh ColMesh.items
  rw [List.map_append, List.map_flatMap]
  congr 1
  refine List.flatMap_congr fun g _ => ?_
  unfold Touch.geom ColGeom.items
  rw [List.map_cons, List.map_flatMap]
  have : ∀ s ∈ g.subgeoms, (t.sub m.version s).map Prod.snd = s.items m.version := by
    intro s _
    unfold Touch.sub ColSub.items
    rw [List.map_cons, List.map_flatMap, List.flatMap_congr fun l _ => t.lod_items m.version l]
    rfl
  rw [List.flatMap_congr this]
  rfl

theorem touched_bytes {m m' : ColFile} (h : t.Mesh m m') :
    SameOutside (t.mask pl m) (layout pl m.items) (layout pl m'.items) := by
  have := swaps_bytes (pl := pl) (touched_mesh h)
  rwa [t.mesh_items] at this

theorem forall₂_map {α β : Type} {R : β → β → Prop} (f g : α → β) (l : List α) (h : ∀ a ∈ l, R (f a) (g a)) :
    List.Forall₂ R (l.map f) (l.map g) := by
  rw [List.forall₂_map_left_iff, List.forall₂_map_right_iff, List.forall₂_same]
  exact h

theorem forall₂_self_map {α : Type} {R : α → α → Prop} (g : α → α) (l : List α) (h : ∀ a ∈ l, R a (g a)) :
    List.Forall₂ R l (l.map g) := by
  rw [List.forall₂_map_right_iff, List.forall₂_same]
  exact h

theorem near_quieted (t : Touch) (ht : t.nans = true) (w : W) : t.Near w (quieted w) := by
  by_cases h : SNaN w
  · exact .inl ⟨ht, h⟩
  · exact .inr (quieted_of_not h)

theorem mem_moved {F φ : Type} [FArith F] {off : Vec3 F} {m : ColMesh F φ} {l : ColLod F φ}
    (h : l ∈ (colTranslate off m).lods) :
    ∃ l0 ∈ m.lods, l = { l0 with vertices := l0.vertices.map fun v => v.plus off } := by
  unfold ColMesh.lods colTranslate at *
  simp only [List.mem_flatMap, List.mem_map] at h ⊢
  obtain ⟨_, ⟨g, hg, rfl⟩, h⟩ := h
  simp only [List.mem_map] at h
  obtain ⟨_, ⟨s, hs, rfl⟩, h⟩ := h
  simp only [List.mem_map] at h
  obtain ⟨l0, hl, rfl⟩ := h
  exact ⟨l0, ⟨g, hg, s, hs, hl⟩, rfl⟩

theorem stored_lods (m : ColMesh F64 ColFace) : m.stored.lods = m.lods.map (ColLod.map packF ColFace.stored) := by
  unfold ColMesh.stored ColMesh.lods ColMesh.map ColGeom.map ColSub.map
  simp only [List.flatMap_map, List.map_flatMap]

theorem obj_stored (r : ColFile) : r.obj.stored = r.map quieted FileFace.blank := by
  unfold ColMesh.obj ColMesh.stored
  rw [ColMesh.map_map]
  have : packF ∘ unpackF = quieted := funext packF_unpackF
  rw [this]
  rfl

/-! ## How many bytes -/

/-- How many bytes of these items are marked. -/
def markCount (pl : Plat) (M : List Marked) : Nat := (M.flatMap (Marked.mask pl)).countP id

theorem markCount_append (M N : List Marked) : markCount pl (M ++ N) = markCount pl M + markCount pl N := by
  unfold markCount
  rw [List.flatMap_append, List.countP_append]

theorem markCount_cons (p : Marked) (N : List Marked) :
    markCount pl (p :: N) = (p.mask pl).countP id + markCount pl N := by
  unfold markCount
  rw [List.flatMap_cons, List.countP_append]

theorem fixed_mask (i : Item) : ((fixed i).mask pl).countP id = 0 := by
  cases i <;> simp [fixed, Marked.mask]

theorem markCount_fixed : ∀ l : List Item, markCount pl (l.map fixed) = 0
  | [] => rfl
  | i :: l => by rw [List.map_cons, markCount_cons, fixed_mask, markCount_fixed l]

theorem markCount_flat {α : Type} (f : α → List Marked) (n : Nat) (l : List α) (h : ∀ a ∈ l, markCount pl (f a) = n) :
    markCount pl (l.flatMap f) = n * l.length := by
  induction l with
  | nil => rfl
  | cons a l ih =>
    rw [List.flatMap_cons, markCount_append, h a (List.mem_cons_self ..), ih fun b hb => h b (List.mem_cons_of_mem _ hb),
      List.length_cons]
    ring

theorem markCount_sum {α : Type} (f : α → List Marked) (n : α → Nat) (l : List α)
    (h : ∀ a ∈ l, markCount pl (f a) = n a) : markCount pl (l.flatMap f) = (l.map n).sum := by
  induction l with
  | nil => rfl
  | cons a l ih =>
    rw [List.flatMap_cons, markCount_append, h a (List.mem_cons_self ..), ih fun b hb => h b (List.mem_cons_of_mem _ hb),
      List.map_cons, List.sum_cons]

theorem sum_flat {α : Type} (f : α → List Nat) (l : List α) : (l.flatMap f).sum = (l.map fun a => (f a).sum).sum := by
  rw [List.flatMap_def, List.sum_flatten, List.map_map]
  rfl

/-- What a lod contributes, without signalling NaNs. -/
def Touch.lodCount (t : Touch) (l : ColLod W FileFace) : Nat :=
  (if t.vertices then 12 else 0) * l.vertices.length + (if t.materials then 2 else 0) * l.faces.length

theorem markCount_lod (ht : t.nans = false) (version : Int) (l : ColLod W FileFace) :
    markCount pl (t.lod version l) = t.lodCount l := by
  have e0 : ∀ w, t.word w = fixed (.word w) := fun w => by unfold Touch.word; rw [ht]; rfl
  have e1 : ∀ v : Vec3 W, markCount pl (t.vec v) = 0 := by
    intro v
    have : t.vec v = v.items.map fixed := by
      unfold Touch.vec Vec3.items
      rw [List.map_map]
      exact List.map_congr_left fun w _ => e0 w
    rw [this, markCount_fixed]
  have e2 : markCount pl (l.vertices.flatMap t.vertex) = (if t.vertices then 12 else 0) * l.vertices.length := by
    refine markCount_flat _ _ _ fun v _ => ?_
    unfold Touch.vertex
    simp only [e0]
    unfold markCount
    cases t.vertices <;> rfl
  have e3 : markCount pl (l.faces.flatMap t.face) = (if t.materials then 2 else 0) * l.faces.length := by
    refine markCount_flat _ _ _ fun f _ => ?_
    unfold markCount Touch.face
    cases t.materials <;> rfl
  have e4 : markCount pl (l.ydata.flatMap t.ydata) = 0 := by
    rw [markCount_flat _ 0 _ fun y _ => ?_, Nat.zero_mul]
    unfold Touch.ydata
    rw [e0]
    exact markCount_fixed [.word y.u1, .sshort y.u2, .sshort y.u3, .long y.u4, .long y.u5]
  have e5 : markCount pl (if 9 ≤ version then [fixed (.long l.coltype)] else []) = 0 := by
    split
    · exact markCount_fixed [.long l.coltype]
    · rfl
  have e6 : markCount pl (if 10 ≤ version then fixed (.long l.anum) :: (l.adata.map Item.long).map fixed else []) = 0 := by
    split
    · exact markCount_fixed (.long l.anum :: l.adata.map Item.long)
    · rfl
  have e7 : markCount pl [fixed (.byte l.u7)] = 0 := markCount_fixed [.byte l.u7]
  unfold Touch.lod Touch.lodCount
  simp only [markCount_append, markCount_cons, fixed_mask, markCount_fixed, e1, e2, e3, e4, e5, e6]
  have : markCount pl [] = 0 := rfl
  omega

theorem touch_count (ht : t.nans = false) (m : ColFile) :
    (t.mask pl m).countP id = (m.lods.map t.lodCount).sum := by
  have h1 : ∀ s : ColSub W FileFace, markCount pl (t.sub m.version s) = (s.lods.map t.lodCount).sum := by
    intro s
    unfold Touch.sub
    rw [markCount_cons, fixed_mask, Nat.zero_add]
    exact markCount_sum _ _ _ fun l _ => markCount_lod ht _ l
  have h2 : ∀ g : ColGeom W FileFace, markCount pl (t.geom m.version g) =
      (g.subgeoms.map fun s => (s.lods.map t.lodCount).sum).sum := by
    intro g
    unfold Touch.geom
    rw [markCount_cons, fixed_mask, Nat.zero_add]
    exact markCount_sum _ _ _ fun s _ => h1 s
  have h3 : markCount pl (t.mesh m) =
      (m.geoms.map fun g => (g.subgeoms.map fun s => (s.lods.map t.lodCount).sum).sum).sum := by
    unfold Touch.mesh
    rw [markCount_append, markCount_sum _ _ _ fun g _ => h2 g]
    have : markCount pl [fixed (.long m.u1), fixed (.long m.version), fixed (.long m.geomnum)] = 0 :=
      markCount_fixed [.long m.u1, .long m.version, .long m.geomnum]
    rw [this, Nat.zero_add]
  show markCount pl (t.mesh m) = _
  rw [h3]
  unfold ColMesh.lods
  rw [List.map_flatMap, sum_flat]
  congr 1
  refine List.map_congr_left fun g _ => ?_
  rw [List.map_flatMap, sum_flat]

/-! ## Without signalling NaNs -/

theorem word_quiet {w : W} (h : ¬ SNaN w) : t.word w = { t with nans := false }.word w := by
  unfold Touch.word
  rw [decide_eq_false h, Bool.and_false, Bool.false_and]

theorem lod_quiet (version : Int) {l : ColLod W FileFace} (h : ∀ w ∈ l.floats, ¬ SNaN w) :
    t.lod version l = { t with nans := false }.lod version l := by
  have hv : ∀ v : Vec3 W, (∀ w ∈ v.floats, w ∈ l.floats) → t.vec v = { t with nans := false }.vec v :=
    fun v hv => List.map_congr_left fun w hw => word_quiet (h w (hv w hw))
  have h1 : l.vertices.flatMap t.vertex = l.vertices.flatMap { t with nans := false }.vertex := by
    refine List.flatMap_congr fun v hv => List.map_congr_left fun w hw => ?_
    rw [word_quiet (h w ?_)]
    simp only [ColLod.floats, List.mem_append, List.mem_flatMap]
    exact .inl (.inl (.inl (.inl (.inl ⟨v, hv, hw⟩))))
  have h2 : l.ydata.flatMap t.ydata = l.ydata.flatMap { t with nans := false }.ydata := by
    refine List.flatMap_congr fun y hy => ?_
    unfold Touch.ydata
    rw [word_quiet (h y.u1 ?_)]
    simp only [ColLod.floats, List.mem_append, List.mem_map]
    exact .inr ⟨y, hy, rfl⟩
  unfold Touch.lod
  rw [h1, h2, hv l.min, hv l.max, hv l.bmin, hv l.bmax]
  · rfl
  all_goals
    intro w hw
    simp only [ColLod.floats, List.mem_append, List.mem_flatMap]
    tauto

theorem mesh_quiet {m : ColFile} (h : ∀ l ∈ m.lods, ∀ w ∈ l.floats, ¬ SNaN w) :
    t.mesh m = { t with nans := false }.mesh m := by
  unfold Touch.mesh
  congr 1
  refine List.flatMap_congr fun g hg => ?_
  unfold Touch.geom
  congr 1
  refine List.flatMap_congr fun s hs => ?_
  unfold Touch.sub
  congr 1
  refine List.flatMap_congr fun l hl => lod_quiet _ (h l ?_)
  unfold ColMesh.lods
  simp only [List.mem_flatMap]
  exact ⟨g, hg, s, hs, hl⟩

end Bf2
