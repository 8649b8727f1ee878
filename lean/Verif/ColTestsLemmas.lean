import Verif.ColEqualLemmas
import Verif.ColProgramsLemmas
import Verif.ColLemmas
import Verif.ColTests
import Verif.ColTestsSpec
import Verif.ObjectLemmas

/-! # Lemmas about the tests of collision meshes -/

namespace Bf2

/-! ## Writing -/

theorem saveCol_eq {F : Type} [FCodec F] (pl : Plat) (fs : FS) (m : ColMesh F ColFace) (name : Str) :
    saveCol pl fs m name = writeInto fs name (writeCol pl m) := by
  unfold saveCol writeInto
  rcases fs.ensureDir name with ⟨fs1, _ | e⟩
  · dsimp only
    rcases fs1.openWrite name with e | ⟨fs2, l⟩ <;> rfl
  · rfl

theorem writeInto_place {fs fs1 : FS} {name : Str} {loc : Loc} (hd : fs.ensureDir name = (fs1, none))
    (hr : fs1.resolve name = .ok loc) (hn : fs1.node loc ≠ some .dir) (w : Out) :
    ∃ fs', writeInto fs name w = (fs', w.err) ∧ fs'.read name = .ok w.bytes := by
  have how : fs1.openWrite name = .ok (fs1.set loc (.file []), loc) := by
    unfold FS.openWrite
    rw [hr]
    simp only
  refine ⟨_, ?_, (openWrite_set how w.bytes).read⟩
  unfold writeInto
  rw [hd]
  simp only
  rw [how]

/-! ## Equality both ways -/

theorem NumEq.flip {x y : F64} (h : NumEq x y) : NumEq y x := by
  rcases h with ⟨a, b, c⟩ | ⟨a, b, c⟩
  · exact .inl ⟨b, a, c.symm⟩
  · exact .inr ⟨b, a, c.symm⟩

theorem forall₂_symm {α : Type} {R : α → α → Prop} (hR : ∀ a b, R a b → R b a) {l r : List α}
    (h : List.Forall₂ R l r) : List.Forall₂ R r l := by
  induction h with
  | nil => exact .nil
  | cons h _ ih => exact .cons (hR _ _ h) ih

theorem NumsEq.flip {x y : List F64} (h : NumsEq x y) : NumsEq y x := forall₂_symm (fun _ _ => NumEq.flip) h

theorem FaceEqual.flip {a b : ColFace} (h : FaceEqual a b) : FaceEqual b a := by
  obtain ⟨⟨h1, h2, h3⟩, n, h4, h5⟩ := h
  exact ⟨⟨h1.symm, h2.symm, h3.symm⟩, n, h5, h4⟩

theorem ColLodEqual.flip {a b : ColLod F64 ColFace} (h : ColLodEqual a b) : ColLodEqual b a :=
  ⟨h.1.symm, h.2.symm, forall₂_symm (fun _ _ => FaceEqual.flip) h.3, h.4.symm,
    forall₂_symm (fun _ _ => NumsEq.flip) h.5, h.6.symm, h.7.flip, h.8.flip, h.9.symm, h.10.flip, h.11.flip,
    h.12.symm, forall₂_symm (fun _ _ y => ⟨y.1.flip, y.2.symm, y.3.symm, y.4.symm, y.5.symm⟩) h.13, h.14.symm,
    h.15.symm, h.16.symm, h.17.symm⟩

theorem ColSubEqual.flip {a b : ColSub F64 ColFace} (h : ColSubEqual a b) : ColSubEqual b a :=
  ⟨h.1.symm, forall₂_symm (fun _ _ => ColLodEqual.flip) h.2⟩

theorem ColGeomEqual.flip {a b : ColGeom F64 ColFace} (h : ColGeomEqual a b) : ColGeomEqual b a :=
  ⟨h.1.symm, forall₂_symm (fun _ _ => ColSubEqual.flip) h.2⟩

/-! ## What fits -/

def FitsSigned (v : Int) : Prop := -32768 ≤ v ∧ v ≤ 32767

/-- A lod that can be written. -/
structure LodFits (pl : Plat) (version : Int) (l : ColLod (BitVec 32) FileFace) : Prop where
  coltype : 9 ≤ version → IsLong pl l.coltype
  facenum : IsLong pl l.facenum
  faces : ∀ f ∈ l.faces, FitsSigned f.v1 ∧ FitsSigned f.v2 ∧ FitsSigned f.v3 ∧ FitsSigned f.material
  vertnum : IsLong pl l.vertnum
  vertids : ∀ v ∈ l.vertids, FitsSigned v
  u7 : -128 ≤ l.u7 ∧ l.u7 ≤ 127
  ynum : IsLong pl l.ynum
  ydata : ∀ y ∈ l.ydata, FitsSigned y.u2 ∧ FitsSigned y.u3 ∧ IsLong pl y.u4 ∧ IsLong pl y.u5
  znum : IsLong pl l.znum
  zdata : ∀ v ∈ l.zdata, FitsSigned v
  anum : 10 ≤ version → IsLong pl l.anum
  adata : 10 ≤ version → ∀ v ∈ l.adata, IsLong pl v

theorem lodFits_iff (pl : Plat) (v : Int) (l : ColLod (BitVec 32) FileFace) :
    (∀ i ∈ l.items v, i.Fits pl) ↔ LodFits pl v l := by
  have hv : ∀ x : Vec3 (BitVec 32), ∀ i ∈ x.items, i.Fits pl := by
    intro x i hi
    simp only [Vec3.items, List.mem_map] at hi
    obtain ⟨w, -, rfl⟩ := hi
    trivial
  unfold ColLod.items
  simp only [List.forall_mem_append, List.forall_mem_cons, List.forall_mem_flatMap, List.forall_mem_map]
  have hface : ∀ f : FileFace, (∀ i ∈ f.items, i.Fits pl) ↔
      FitsSigned f.v1 ∧ FitsSigned f.v2 ∧ FitsSigned f.v3 ∧ FitsSigned f.material := by
    intro f
    simp [FileFace.items, Item.Fits, FitsSigned]
  have hy : ∀ y : ColY (BitVec 32), (∀ i ∈ y.items, i.Fits pl) ↔
      FitsSigned y.u2 ∧ FitsSigned y.u3 ∧ IsLong pl y.u4 ∧ IsLong pl y.u5 := by
    intro y
    simp [ColY.items, Item.Fits, FitsSigned]
  have h9 : (∀ i ∈ (if 9 ≤ v then [Item.long l.coltype] else []), i.Fits pl) ↔
      (9 ≤ v → IsLong pl l.coltype) := by
    split <;> simp_all [Item.Fits]
  have h10 : (∀ i ∈ (if 10 ≤ v then Item.long l.anum :: l.adata.map Item.long else []), i.Fits pl) ↔
      (10 ≤ v → IsLong pl l.anum ∧ ∀ x ∈ l.adata, IsLong pl x) := by
    split <;> simp_all [Item.Fits]
  simp only [h9, h10, hface, hy]
  constructor
  · rintro ⟨⟨⟨⟨⟨⟨h1, h2, h3⟩, h4, -, h5⟩, ⟨⟨⟨-, h6, -⟩, -⟩, -⟩⟩, h7, h8⟩, h9, h10⟩, h11⟩
    exact ⟨h1, h2, h3, h4, h5, h6, h7, h8, h9, h10, fun h => (h11 h).1, fun h => (h11 h).2⟩
  · intro h
    exact ⟨⟨⟨⟨⟨⟨h.1, h.2, h.3⟩, h.4, fun x _ => hv x, h.5⟩,
      ⟨⟨⟨⟨hv _, hv _⟩, h.6, fun _ h => (by cases h)⟩, hv _⟩, hv _⟩⟩, h.7, h.8⟩, h.9, h.10⟩,
      fun k => ⟨h.11 k, h.12 k⟩⟩

/-- The counts outside the lods fit. -/
def SkeletonFits (pl : Plat) (s : Int × Int × Int × List (Int × List (Int × Nat))) : Prop :=
  (IsLong pl s.1 ∧ IsLong pl s.2.1 ∧ IsLong pl s.2.2.1) ∧
    ∀ g ∈ s.2.2.2, IsLong pl g.1 ∧ ∀ x ∈ g.2, IsLong pl x.1

theorem meshFits_iff (pl : Plat) (r : ColFile) :
    (∀ i ∈ r.items, i.Fits pl) ↔ SkeletonFits pl r.skeleton ∧ ∀ l ∈ r.lods, LodFits pl r.version l := by
  unfold ColMesh.items ColGeom.items ColSub.items SkeletonFits ColMesh.skeleton ColMesh.lods
  simp only [List.forall_mem_append, List.forall_mem_cons, List.forall_mem_flatMap, List.forall_mem_map,
    lodFits_iff]
  constructor
  · rintro ⟨⟨h1, h2, h3, -⟩, h4⟩
    exact ⟨⟨⟨h1, h2, h3⟩, fun g hg => ⟨(h4 g hg).1, fun s hs => ((h4 g hg).2 s hs).1⟩⟩,
      fun g hg s hs => ((h4 g hg).2 s hs).2⟩
  · rintro ⟨⟨⟨h1, h2, h3⟩, h4⟩, h5⟩
    exact ⟨⟨h1, h2, h3, fun _ h => (by cases h)⟩,
      fun g hg => ⟨(h4 g hg).1, fun s hs => ⟨(h4 g hg).2 s hs, h5 g hg s hs⟩⟩⟩

theorem stored_skeleton (m : ColMesh F64 ColFace) : m.stored.skeleton = m.skeleton := by
  simp [ColMesh.stored, ColMesh.skeleton, ColMesh.map, ColGeom.map, ColSub.map, Function.comp_def]

theorem stored_lods (m : ColMesh F64 ColFace) : m.stored.lods = m.lods.map (ColLod.map packF ColFace.stored) := by
  simp [ColMesh.stored, ColMesh.lods, ColMesh.map, ColGeom.map, ColSub.map, List.map_flatMap,
    List.flatMap_map]

/-- A mesh can be written if its counts and its lods fit. -/
theorem storedFits_iff (pl : Plat) (m : ColMesh F64 ColFace) :
    (∀ i ∈ m.stored.items, i.Fits pl) ↔ SkeletonFits pl m.skeleton ∧
      ∀ l ∈ m.lods, LodFits pl m.version (l.map packF ColFace.stored) := by
  rw [meshFits_iff, stored_skeleton, stored_lods, List.forall_mem_map]
  rfl

/-- If a lod fits, then the lod beside its copy does exactly if the doubled counts and the moved corners do. -/
theorem doubled_fits {pl : Plat} {v : Int} {diff off : Vec3 F64} {x z : ColLod F64 ColFace}
    (D : Doubled diff off x z) (hx : LodFits pl v (x.map packF ColFace.stored)) :
    LodFits pl v (z.map packF ColFace.stored) ↔ CanDouble pl v x := by
  have hy : ∀ y : ColLod F64 ColFace, (y.map packF ColFace.stored).faces = y.faces.map ColFace.stored :=
    fun _ => rfl
  constructor
  · intro h
    refine ⟨D.facenum ▸ h.2, D.vertnum ▸ h.4, D.ynum ▸ h.7, D.znum ▸ h.9, fun k => D.anum ▸ h.11 k, ?_⟩
    intro f hf c hc
    have := h.3 _ (by
      rw [hy, D.faces]
      exact List.mem_map_of_mem (List.mem_append_right _ (List.mem_map_of_mem hf)))
    simp only [ColFace.corners, List.mem_cons, List.not_mem_nil, or_false] at hc
    rcases hc with rfl | rfl | rfl
    · exact this.1
    · exact this.2.1
    · exact this.2.2.1
  · intro h
    have hf := hx.3
    rw [hy, List.forall_mem_map] at hf
    refine ⟨fun k => D.coltype ▸ hx.1 k, D.facenum ▸ h.1, ?_, D.vertnum ▸ h.2, ?_, D.u7 ▸ hx.6, D.ynum ▸ h.3,
      ?_, D.znum ▸ h.4, ?_, fun k => D.anum ▸ h.5 k, fun k => ?_⟩
    · rw [hy, D.faces, List.forall_mem_map, List.forall_mem_append, List.forall_mem_map]
      refine ⟨hf, fun f h' => ⟨?_, ?_, ?_, (hf f h').2.2.2⟩⟩ <;>
        exact h.6 f h' _ (by simp [ColFace.corners])
    · intro y hy
      have : y ∈ x.vertids ++ x.vertids := D.vertids ▸ hy
      exact hx.5 y ((List.mem_append.1 this).elim id id)
    · intro y hy
      have : y ∈ (x.ydata ++ x.ydata).map (ColY.map packF) := D.ydata ▸ hy
      rw [List.map_append] at this
      exact hx.8 y ((List.mem_append.1 this).elim id id)
    · intro y hy
      have : y ∈ x.zdata ++ x.zdata := D.zdata ▸ hy
      exact hx.10 y ((List.mem_append.1 this).elim id id)
    · intro y hy
      have : y ∈ x.adata ++ x.adata := D.adata ▸ hy
      exact hx.12 k y ((List.mem_append.1 this).elim id id)

/-! ## The header -/

theorem readColHeader_parses (pl : Plat) (a b : Int) (ha : IsLong pl a) (hb : IsLong pl b) (rest : Bytes) :
    readColHeader pl (layout pl [.long a, .long b] ++ rest) = .ok ((a, b), rest) := by
  have h1 : readLong pl (layout pl [.long a] ++ (layout pl [.long b] ++ rest)) =
      .ok (a, layout pl [.long b] ++ rest) :=
    (readLong_parses _ _ _).2 ⟨a, trivial, by simpa [Item.Fits] using ha, rfl, rfl⟩
  have h2 : readLong pl (layout pl [.long b] ++ rest) = .ok (b, rest) :=
    (readLong_parses _ _ _).2 ⟨b, trivial, by simpa [Item.Fits] using hb, rfl, rfl⟩
  have e : layout pl [.long a, .long b] ++ rest = layout pl [.long a] ++ (layout pl [.long b] ++ rest) := by
    simp [layout]
  rw [e]
  show (P.bind (readLong pl) _) _ = _
  unfold P.bind
  rw [h1]
  show (P.bind (readLong pl) _) _ = _
  unfold P.bind
  rw [h2]
  rfl

/-! ## Loaded meshes -/

theorem obj_floats (r : ColFile) : ∀ l ∈ r.obj.lods, ∀ x ∈ l.floats, unpackF (packF x) = x := by
  intro l hl x hx
  simp only [ColMesh.lods, ColMesh.obj, ColMesh.map, List.mem_flatMap, List.mem_map] at hl
  obtain ⟨_, ⟨g, -, rfl⟩, s, hs, hl⟩ := hl
  simp only [ColGeom.map, List.mem_map] at hs
  obtain ⟨s, -, rfl⟩ := hs
  simp only [ColSub.map, List.mem_map] at hl
  obtain ⟨l, -, rfl⟩ := hl
  have hfl : (l.map unpackF FileFace.obj).floats = l.floats.map unpackF := by
    simp [ColLod.floats, ColLod.map, Vec3.floats, Vec3.map, ColY.map, List.map_flatMap, List.flatMap_map]
  rw [hfl] at hx
  obtain ⟨w, -, rfl⟩ := List.mem_map.1 hx
  exact unpackF_packF_unpackF w

/-- Meshes with the same counts have lods in the same places. -/
theorem lodAt_of_skeleton {F φ ψ : Type} {a : ColMesh F φ} {b : ColMesh F ψ} (h : a.skeleton = b.skeleton)
    {i j k : Nat} {z : ColLod F φ} (hz : a.lodAt i j k = some z) : ∃ x, b.lodAt i j k = some x := by
  have h1 : (a.geoms.map fun g => (g.subgeomnum, g.subgeoms.map fun s => (s.lodnum, s.lods.length))) =
      b.geoms.map fun g => (g.subgeomnum, g.subgeoms.map fun s => (s.lodnum, s.lods.length)) :=
    congrArg (fun s => s.2.2.2) h
  have h2 := congrArg (fun l => (l[i]?).bind fun g => (g.2[j]?).map fun s => s.2) h1
  simp only [List.getElem?_map] at h2
  unfold ColMesh.lodAt at hz ⊢
  rcases ha : a.geoms[i]? with _ | ga
  · simp [ha] at hz
  rcases hb : b.geoms[i]? with _ | gb
  · simp only [ha, Option.bind_some] at hz
    rcases hs : ga.subgeoms[j]? with _ | sa
    · simp [hs] at hz
    · simp [ha, hb, hs] at h2
  simp only [ha, hb, Option.map_some, Option.bind_some, List.getElem?_map] at h2 hz ⊢
  rcases hs : ga.subgeoms[j]? with _ | sa
  · simp [hs] at hz
  rcases ht : gb.subgeoms[j]? with _ | sb
  · simp [hs, ht] at h2
  simp only [hs, ht, Option.map_some, Option.bind_some, Option.some.injEq] at h2 hz ⊢
  obtain ⟨hk, -⟩ := List.getElem?_eq_some_iff.1 hz
  exact ⟨_, List.getElem?_eq_getElem (h2 ▸ hk)⟩

end Bf2
