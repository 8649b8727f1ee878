import Verif.MeshLemmas

/-! # Loading and exporting through a float codec, in terms of raw words

Loading as Python floats is loading the raw words and unpacking each; exporting Python floats is
packing each and exporting the raw words. -/

namespace Bf2

variable {F G : Type}

namespace P
variable {α β γ : Type}

theorem rep_map {p : P β} {q : P α} {f : α → β} (h : p = f <$> q) (n : Nat) :
    rep p n = List.map f <$> rep q n := by
  induction n with
  | zero => simp [rep]
  | succ n ih =>
    rw [rep, rep, ih, h]
    simp only [map_eq_pure_bind, bind_assoc, pure_bind, List.map]

theorem each_map {γ' : Type} {p : γ' → P β} {q : γ → P α} {f : α → β} {g : γ → γ'}
    (h : ∀ c, p (g c) = f <$> q c) (l : List γ) :
    each p (l.map g) = List.map f <$> each q l := by
  induction l with
  | nil => simp [each]
  | cons a l ih =>
    rw [List.map, each, each, h, ih]
    simp only [map_eq_pure_bind, bind_assoc, pure_bind, List.map]

end P

/-! ## Composition -/

theorem Option.map_map' {α β γ : Type} (f : α → β) (g : β → γ) (o : Option α) :
    (o.map f).map g = o.map (fun a => g (f a)) := by cases o <;> rfl

variable {H : Type}

theorem Mat.map_map (f : F → G) (g : G → H) (m : Mat F) : (m.map f).map g = m.map (g ∘ f) := by
  simp only [Mat.map, Option.map_map']; rfl

theorem Lod.map_map (f : F → G) (g : G → H) (l : Lod F) : (l.map f).map g = l.map (g ∘ f) := by
  simp only [Lod.map, List.map_map, Option.map_map']
  congr 1
  · refine List.map_congr_left fun r _ => ?_
    simp only [Function.comp, Rig.map, List.map_map]; rfl
  · refine List.map_congr_left fun r _ => ?_
    exact Mat.map_map f g r

theorem Mesh.map_map (f : F → G) (g : G → H) (m : Mesh F) : (m.map f).map g = m.map (g ∘ f) := by
  simp only [Mesh.map, List.map_map]
  congr 1
  refine List.map_congr_left fun r _ => ?_
  simp only [Function.comp, Geom.map, List.map_map]
  congr 1
  refine List.map_congr_left fun l _ => ?_
  exact Lod.map_map f g l

/-- `MeshWF` does not depend on the float values. -/
theorem MeshWF.map {m : Mesh F} (h : MeshWF m) (f : F → G) : MeshWF (m.map f) where
  geoms := by simpa [Mesh.map] using h.geoms
  geom := by
    intro g hg
    simp only [Mesh.map, List.mem_map] at hg
    obtain ⟨g, hg, rfl⟩ := hg
    have hw := h.geom g hg
    show GeomWF m.kind m.head.version _
    refine ⟨by simpa [Geom.map] using hw.lods, ?_, ?_⟩
    · intro l hl
      simp only [Geom.map, List.mem_map] at hl
      obtain ⟨l, hl, rfl⟩ := hl
      have r := hw.nodes l hl
      refine ⟨by simpa [Lod.map] using r.1, by simpa [Lod.map] using r.2, ?_,
        r.4, by simpa [Lod.map, Mesh.map] using r.5, r.6⟩
      intro x hx
      simp only [Lod.map, List.mem_map] at hx
      obtain ⟨x, hx, rfl⟩ := hx
      simpa [Rig.map] using r.3 x hx
    · intro l hl
      simp only [Geom.map, List.mem_map] at hl
      obtain ⟨l, hl, rfl⟩ := hl
      have r := hw.mats l hl
      refine ⟨by simpa [Lod.map] using r.1, ?_⟩
      intro x hx
      simp only [Lod.map, List.mem_map] at hx
      obtain ⟨x, hx, rfl⟩ := hx
      have q := r.2 x hx
      exact ⟨q.1, q.2, by simpa [Mat.map] using q.3, by simpa [Mat.map] using q.4⟩
  vattrs := h.vattrs
  vertformat := h.vertformat
  vertices := by simpa [Mesh.map, Mesh.announced] using h.vertices
  not_one := by simpa [Mesh.map] using h.not_one
  index := h.index
  u2 := h.u2

variable [FCodec F]

local notation "un" => (FCodec.unpack : BitVec 32 → F)
local notation "pk" => (FCodec.pack : F → BitVec 32)

theorem readFloat1_map (pl : Plat) : readFloat1 (F := F) pl = un <$> readFloat1 (F := W) pl := by
  simp only [readFloat1, map_eq_pure_bind, bind_assoc, pure_bind]; rfl

theorem readFloat3_map (pl : Plat) :
    readFloat3 (F := F) pl = Vec3.map un <$> readFloat3 (F := W) pl := by
  simp only [readFloat3, readFloat1_map (F := F), map_eq_pure_bind, bind_assoc, pure_bind, Vec3.map]

theorem readFloat4_map (pl : Plat) :
    readFloat4 (F := F) pl = Vec4.map un <$> readFloat4 (F := W) pl := by
  simp only [readFloat4, readFloat1_map (F := F), map_eq_pure_bind, bind_assoc, pure_bind, Vec4.map]

theorem readMatrix4_map (pl : Plat) :
    readMatrix4 (F := F) pl = Mat4.map un <$> readMatrix4 (F := W) pl := by
  simp only [readMatrix4, readFloat4_map (F := F), map_eq_pure_bind, bind_assoc, pure_bind, Mat4.map]

theorem loadVertices_map (pl : Plat) (a b c : Int) :
    loadVertices (F := F) pl a b c = List.map un <$> loadVertices (F := W) pl a b c := by
  unfold loadVertices
  cases dataNum a b c with
  | error e => rfl
  | ok n =>
    simp only [readFloat, readCount]
    split
    · rfl
    · split
      · simp only [readFloat1_map (F := F), map_eq_pure_bind, bind_assoc, pure_bind]; rfl
      · rw [P.rep_map (readFloat1_map (F := F) pl)]
        simp only [map_eq_pure_bind, bind_assoc, pure_bind]

theorem loadBone_map (pl : Plat) : loadBone (F := F) pl = Bone.map un <$> loadBone (F := W) pl := by
  simp only [loadBone, readMatrix4_map (F := F), map_eq_pure_bind, bind_assoc, pure_bind, Bone.map]

theorem loadRig_map (pl : Plat) : loadRig (F := F) pl = Rig.map un <$> loadRig (F := W) pl := by
  simp only [loadRig, P.rep_map (loadBone_map (F := F) pl), map_eq_pure_bind, bind_assoc, pure_bind, Rig.map]

theorem loadPivot_map (pl : Plat) (v : Int) :
    loadPivot (F := F) pl v = Option.map (Vec3.map un) <$> loadPivot (F := W) pl v := by
  unfold loadPivot
  split
  · simp only [readFloat3_map (F := F), map_eq_pure_bind, bind_assoc, pure_bind, Option.map]
  · rfl

theorem loadNodes_map (pl : Plat) (k : Kind) (n : Int) :
    loadNodes (F := F) pl k n = List.map (Mat4.map un) <$> loadNodes (F := W) pl k n := by
  unfold loadNodes
  split
  · rfl
  · exact P.rep_map (readMatrix4_map (F := F) pl) _

theorem loadLodNodes_map (pl : Plat) (v : Int) (k : Kind) :
    loadLodNodes (F := F) pl v k = Lod.map un <$> loadLodNodes (F := W) pl v k := by
  unfold loadLodNodes
  split
  · simp only [readFloat3_map (F := F), loadPivot_map (F := F), P.rep_map (loadRig_map (F := F) pl), map_eq_pure_bind,
      bind_assoc, pure_bind, Lod.map, List.map_nil]
  · simp only [readFloat3_map (F := F), loadPivot_map (F := F), loadNodes_map (F := F), map_eq_pure_bind,
      bind_assoc, pure_bind, Lod.map, List.map_nil]

theorem loadMat_map (pl : Plat) (v : Int) (k : Kind) :
    loadMat (F := F) pl v k = Mat.map un <$> loadMat (F := W) pl v k := by
  unfold loadMat
  split
  · simp only [readFloat3_map (F := F), map_eq_pure_bind, bind_assoc, pure_bind, Mat.map, Option.map]
  · simp only [map_eq_pure_bind, bind_assoc, pure_bind, Mat.map, Option.map]

theorem loadLodMaterials_map (pl : Plat) (v : Int) (k : Kind) (l : Lod W) :
    loadLodMaterials (F := F) pl v k (l.map un) = Lod.map un <$> loadLodMaterials pl v k l := by
  simp only [loadLodMaterials, P.rep_map (loadMat_map (F := F) pl v k), map_eq_pure_bind, bind_assoc,
    pure_bind, Lod.map]

theorem loadGeomNodes_map (pl : Plat) (v : Int) (k : Kind) (n : Int) :
    loadGeomNodes (F := F) pl v k n = Geom.map un <$> loadGeomNodes (F := W) pl v k n := by
  simp only [loadGeomNodes, P.rep_map (loadLodNodes_map (F := F) pl v k), map_eq_pure_bind, bind_assoc,
    pure_bind, Geom.map]

theorem loadGeomMaterials_map (pl : Plat) (v : Int) (k : Kind) (g : Geom W) :
    loadGeomMaterials (F := F) pl v k (g.map un) = Geom.map un <$> loadGeomMaterials pl v k g := by
  simp only [loadGeomMaterials, Geom.map, P.each_map (loadLodMaterials_map (F := F) pl v k),
    map_eq_pure_bind, bind_assoc, pure_bind]

theorem loadBody_map (pl : Plat) (k : Kind) :
    loadBody (F := F) pl k = Mesh.map un <$> loadBody (F := W) pl k := by
  have h1 : ∀ (v : Int) (l : List Int), P.each (loadGeomNodes (F := F) pl v k) l
      = List.map (Geom.map un) <$> P.each (loadGeomNodes (F := W) pl v k) l := by
    intro v l
    have := P.each_map (g := id) (p := loadGeomNodes (F := F) pl v k) (loadGeomNodes_map (F := F) pl v k) l
    rwa [List.map_id] at this
  simp only [loadBody, loadVertices_map (F := F), h1, P.each_map (loadGeomMaterials_map (F := F) pl _ k),
    map_eq_pure_bind, bind_assoc, pure_bind, Mesh.map]

/-- Loading as floats is loading raw words and unpacking every one. -/
theorem load_map (pl : Plat) (k : Kind) (file : Bytes) :
    load (F := F) pl k file = (load (F := W) pl k file).map (Mesh.map un) := by
  unfold load
  rw [loadBody_map (F := F), P.map_run]
  cases loadBody (F := W) pl k file with
  | error e => rfl
  | ok x =>
    obtain ⟨m, r⟩ := x
    cases r <;> rfl

/-! ## Exporting -/

theorem floatBytes_map (pl : Plat) (x : F) : floatBytes pl x = floatBytes pl (pk x) := rfl

theorem writeFloat3_map (pl : Plat) (v : Vec3 F) :
    writeFloat3 pl v = writeFloat3 pl (v.map pk) := rfl

theorem writeMatrix4_map (pl : Plat) (v : Mat4 F) :
    writeMatrix4 pl v = writeMatrix4 pl (v.map pk) := rfl

theorem writeFloat3?_map (pl : Plat) (v : Option (Vec3 F)) :
    writeFloat3? pl v = writeFloat3? pl (v.map (Vec3.map pk)) := by
  cases v <;> rfl

theorem exportBone_map (pl : Plat) (b : Bone F) : exportBone pl b = exportBone pl (b.map pk) := rfl

theorem exportRig_map (pl : Plat) (r : Rig F) : exportRig pl r = exportRig pl (r.map pk) := by
  simp only [exportRig, Rig.map, each_map, ← exportBone_map (F := F)]

theorem exportLodNodes_map (pl : Plat) (v : Int) (k : Kind) (l : Lod F) :
    exportLodNodes pl v k l = exportLodNodes pl v k (l.map pk) := by
  simp only [exportLodNodes, Lod.map, each_map, ← exportRig_map (F := F), ← writeFloat3?_map (F := F),
    ← writeMatrix4_map (F := F), ← writeFloat3_map (F := F)]

theorem exportMat_map (pl : Plat) (v : Int) (k : Kind) (m : Mat F) :
    exportMat pl v k m = exportMat pl v k (m.map pk) := by
  simp only [exportMat, Mat.map, ← writeFloat3?_map (F := F)]

theorem exportLodMaterials_map (pl : Plat) (v : Int) (k : Kind) (l : Lod F) :
    exportLodMaterials pl v k l = exportLodMaterials pl v k (l.map pk) := by
  simp only [exportLodMaterials, Lod.map, each_map, ← exportMat_map (F := F)]

/-- Exporting floats is packing every one and exporting the raw words. -/
theorem exportMesh_map (pl : Plat) (m : Mesh F) : exportMesh pl m = exportMesh pl (m.map pk) := by
  simp only [exportMesh, Mesh.map, Geom.map, each_map, ← exportLodNodes_map (F := F),
    ← exportLodMaterials_map (F := F)]
  rfl

/-! ## Whole files -/

theorem load_ok_iff {pl : Plat} {k : Kind} {file : Bytes} {m : Mesh F} :
    load pl k file = .ok m ↔ loadBody pl k file = .ok (m, []) := by
  unfold load
  constructor
  · intro h
    split at h
    · cases h
    · next h' => cases h; exact h'
    · cases h
  · intro h; rw [h]

/-- A raw file loads to exactly the well-formed meshes whose file bytes it is. -/
theorem load_raw_iff {pl : Plat} {k : Kind} {file : Bytes} {m : Mesh W} :
    load pl k file = .ok m ↔ MeshWF m ∧ m.kind = k ∧ fileBytes pl m = ⟨file, none⟩ := by
  rw [load_ok_iff]
  constructor
  · intro h
    obtain ⟨⟨h1, h2⟩, bs, h3, h4⟩ := (loadBody_inv pl k).sound h
    rw [List.append_nil] at h4
    exact ⟨h1, h2, h4 ▸ h3⟩
  · rintro ⟨h1, h2, h3⟩
    have := (loadBody_inv pl k).complete [] ⟨h1, h2⟩ h3
    rwa [List.append_nil] at this

theorem load_ok_map {pl : Plat} {k : Kind} {file : Bytes} {m : Mesh F} :
    load pl k file = .ok m ↔ ∃ r : Mesh W, load pl k file = .ok r ∧ m = r.map un := by
  rw [load_map]
  cases load (F := W) pl k file with
  | error e => simp [Except.map]
  | ok r => simp [Except.map, eq_comm]

end Bf2
