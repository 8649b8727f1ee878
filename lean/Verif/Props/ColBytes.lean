import Verif.ColByteLemmas
import Verif.Props.ColFormat
import Verif.Props.ColEdit
import Verif.ColTestsLemmas
import Verif.ColProgramsLemmas
import Verif.ColSample

/-! # C179: which bytes of a collision mesh file saving and moving change -/

namespace Bf2

local notation "W" => BitVec 32

def onlyVertices : Touch := ⟨true, false, false⟩
def onlyLost : Touch := ⟨false, true, true⟩
def lostAndMoved : Touch := ⟨true, true, true⟩

/-- The lods of a mesh that was moved. -/
theorem moved_mesh (t : Touch) (ht : t.vertices = true) (off : Vec3 F64) (m : ColMesh F64 ColFace) (r : ColFile)
    (h : t.Mesh r m.stored) : t.Mesh r (colTranslate off m).stored := by
  have hv : ∀ l : List (Vec3 W), ∀ l' : List (Vec3 F64), l.length = l'.length →
      List.Forall₂ (fun v v' : Vec3 W => t.vertices = true ∨ t.Near v.x v'.x ∧ t.Near v.y v'.y ∧ t.Near v.z v'.z) l
        ((l'.map fun v => v.plus off).map (Vec3.map packF)) := by
    intro l l' hl
    rw [List.forall₂_iff_get]
    exact ⟨by simp [hl], fun _ _ _ => .inl ht⟩
  have hg := h.geoms
  refine ⟨h.u1, h.version, h.geomnum, ?_⟩
  simp only [ColMesh.stored, ColMesh.map, colTranslate, List.map_map, List.forall₂_map_right_iff] at hg ⊢
  refine hg.imp ?_
  rintro g g' ⟨h1, h2⟩
  refine ⟨h1, ?_⟩
  simp only [Function.comp, ColGeom.map, List.map_map, List.forall₂_map_right_iff] at h2 ⊢
  refine h2.imp ?_
  rintro s s' ⟨h3, h4⟩
  refine ⟨h3, ?_⟩
  simp only [Function.comp, ColSub.map, List.map_map, List.forall₂_map_right_iff] at h4 ⊢
  refine h4.imp fun l l' hl => ?_
  have hlen : l.vertices.length = l'.vertices.length := by
    have := hl.vertices.length_eq
    simpa [ColLod.map] using this
  exact ⟨hl.coltype, hl.facenum, hl.faces, hl.vertnum, hv _ _ hlen, hl.vertids, hl.min, hl.max, hl.u7, hl.bmin,
    hl.bmax, hl.ynum, hl.ydata, hl.znum, hl.zdata, hl.anum, hl.adata⟩

theorem same_mesh (t : Touch) (r : ColFile) : t.Mesh r r := by
  have near : ∀ w, t.Near w w := fun _ => .inr rfl
  refine ⟨rfl, rfl, rfl, List.forall₂_same.2 fun g _ => ⟨rfl, List.forall₂_same.2 fun s _ => ⟨rfl,
    List.forall₂_same.2 fun l _ => ?_⟩⟩⟩
  exact ⟨rfl, rfl, List.forall₂_same.2 fun _ _ => ⟨rfl, rfl, rfl, .inr rfl⟩, rfl,
    List.forall₂_same.2 fun _ _ => .inr ⟨near _, near _, near _⟩, rfl, ⟨near _, near _, near _⟩,
    ⟨near _, near _, near _⟩, rfl, ⟨near _, near _, near _⟩, ⟨near _, near _, near _⟩, rfl,
    List.forall₂_same.2 fun _ _ => ⟨near _, rfl, rfl, rfl, rfl⟩, rfl, rfl, rfl, rfl⟩

theorem resaved_mesh (t : Touch) (hm : t.materials = true) (hn : t.nans = true) (r : ColFile) :
    t.Mesh r (r.map quieted FileFace.blank) := by
  have near := near_quieted t hn
  refine ⟨rfl, rfl, rfl, ?_⟩
  refine forall₂_self_map _ _ fun g _ => ⟨rfl, forall₂_self_map _ _ fun s _ => ⟨rfl, forall₂_self_map _ _ fun l _ => ?_⟩⟩
  exact ⟨rfl, rfl, forall₂_self_map _ _ fun _ _ => ⟨rfl, rfl, rfl, .inl hm⟩, rfl,
    forall₂_self_map _ _ fun _ _ => .inr ⟨near _, near _, near _⟩, rfl, ⟨near _, near _, near _⟩,
    ⟨near _, near _, near _⟩, rfl, ⟨near _, near _, near _⟩, ⟨near _, near _, near _⟩, rfl,
    forall₂_self_map _ _ fun _ _ => ⟨near _, rfl, rfl, rfl, rfl⟩, rfl, rfl, rfl, rfl⟩

/-- **C179.** A mesh that can be saved can be saved after moving it; the files are equally long and differ in
bytes of vertices only. -/
theorem C179_moved {pl : Plat} {m : ColMesh F64 ColFace} {a : Bytes} (saved : writeCol pl m = ⟨a, none⟩)
    (off : Vec3 F64) :
    ∃ b, writeCol pl (colTranslate off m) = ⟨b, none⟩ ∧ SameOutside (onlyVertices.mask pl m.stored) a b := by
  obtain ⟨h1, rfl⟩ := (C61_save_writes_layout pl m a).1 saved
  have hm := moved_mesh onlyVertices rfl off m m.stored (same_mesh _ _)
  refine ⟨layout pl (colTranslate off m).stored.items, (C61_save_writes_layout pl _ _).2 ⟨?_, rfl⟩, touched_bytes hm⟩
  rw [storedFits_iff] at h1 ⊢
  rw [colTranslate_skeleton]
  refine ⟨h1.1, fun l hl => ?_⟩
  obtain ⟨l0, h2, rfl⟩ := mem_moved hl
  obtain ⟨a1, a2, a3, a4, a5, a6, a7, a8, a9, a10, a11, a12⟩ := h1.2 l0 h2
  exact ⟨a1, a2, a3, a4, a5, a6, a7, a8, a9, a10, a11, a12⟩

/-- **C179.** That are twelve bytes for each vertex. -/
theorem C179_moved_count (pl : Plat) (m : ColMesh F64 ColFace) :
    (onlyVertices.mask pl m.stored).countP id = 12 * (m.lods.map fun l => l.vertices.length).sum := by
  rw [touch_count rfl]
  have e : (m.stored).lods = m.lods.map (ColLod.map packF ColFace.stored) := stored_lods m
  rw [e, List.map_map, ← List.sum_map_mul_left]
  congr 1
  refine List.map_congr_left fun l _ => ?_
  simp [Touch.lodCount, onlyVertices, ColLod.map]

/-- **C179.** Loading and saving changes no byte but those of the materials of faces and of signalling NaNs; what
follows the mesh is dropped. -/
theorem C179_resaved (pl : Plat) (r : ColFile) (rest : Bytes) (hr : ColWF r) (hf : ∀ i ∈ r.items, i.Fits pl) :
    ∃ m b, loadCol (F := F64) pl (layout pl r.items ++ rest) = .ok m ∧ writeCol pl m = ⟨b, none⟩ ∧
      SameOutside (onlyLost.mask pl r) (layout pl r.items) b := by
  obtain ⟨h1, h2⟩ := C62_load_save pl r rest hr hf
  exact ⟨_, _, h1, h2, touched_bytes (resaved_mesh _ rfl rfl r)⟩

/-- **C179.** Loading, moving and saving changes no byte but those of vertices, materials and signalling NaNs. -/
theorem C179_loaded_moved (pl : Plat) (r : ColFile) (rest : Bytes) (hr : ColWF r) (hf : ∀ i ∈ r.items, i.Fits pl)
    (off : Vec3 F64) :
    ∃ m b, loadCol (F := F64) pl (layout pl r.items ++ rest) = .ok m ∧
      writeCol pl (colTranslate off m) = ⟨b, none⟩ ∧ SameOutside (lostAndMoved.mask pl r) (layout pl r.items) b := by
  obtain ⟨h1, h2⟩ := C62_load_save pl r rest hr hf
  obtain ⟨b, h3, h4⟩ := C179_moved h2 off
  refine ⟨_, b, h1, h3, ?_⟩
  obtain ⟨-, rfl⟩ := (C61_save_writes_layout pl _ _).1 h3
  refine touched_bytes (moved_mesh _ rfl off _ _ ?_)
  rw [obj_stored]
  exact resaved_mesh _ rfl rfl r

/-- **C179.** Without signalling NaNs that are two bytes for each face, and twelve for each vertex. -/
theorem C179_lost_count (pl : Plat) (r : ColFile) (quiet : ∀ l ∈ r.lods, ∀ w ∈ l.floats, ¬ SNaN w) :
    (onlyLost.mask pl r).countP id = 2 * (r.lods.map fun l => l.faces.length).sum ∧
      (lostAndMoved.mask pl r).countP id = 2 * (r.lods.map fun l => l.faces.length).sum +
        12 * (r.lods.map fun l => l.vertices.length).sum := by
  constructor
  · unfold Touch.mask
    rw [mesh_quiet quiet]
    refine (touch_count (pl := pl) (t := ⟨false, true, false⟩) rfl r).trans ?_
    rw [← List.sum_map_mul_left]
    congr 1
    refine List.map_congr_left fun l _ => ?_
    simp [Touch.lodCount]
  · unfold Touch.mask
    rw [mesh_quiet quiet]
    refine (touch_count (pl := pl) (t := ⟨true, true, false⟩) rfl r).trans ?_
    rw [← List.sum_map_mul_left, ← List.sum_map_mul_left, ← List.sum_map_add]
    congr 1
    refine List.map_congr_left fun l _ => ?_
    simp [Touch.lodCount, Nat.add_comm]

/-- The sample: 330 bytes, 72 of vertices, 4 of materials. -/
example : (onlyVertices.mask win triCol).length = 330 ∧ (onlyVertices.mask win triCol).countP id = 72 ∧
    (onlyLost.mask win triCol).countP id = 4 ∧ (lostAndMoved.mask win triCol).countP id = 76 := by
  decide +kernel

/-- The bytes that change when the sample is loaded, moved by 2 along the third axis and saved. -/
def changedCol : Option (List Nat) :=
  match loadCol (F := F64) win (layout win triCol.items) with
  | .ok m =>
    match writeCol win (colTranslate ⟨unpackF 0, unpackF 0, unpackF 0x40000000⟩ m) with
    | ⟨b, none⟩ => some ((((layout win triCol.items).zip b).zipIdx.filter fun p => p.1.1 ≠ p.1.2).map Prod.snd)
    | _ => none
  | _ => none

/-- Bytes 34 and 189 are of materials, the others of vertices. -/
example : changedCol = some [34, 51, 63, 74, 75, 189, 206, 218, 229, 230] := by decide +kernel

example : (onlyLost.mask win triCol)[34]? = some true ∧ (onlyVertices.mask win triCol)[34]? = some false ∧
    (onlyVertices.mask win triCol)[51]? = some true := by decide +kernel

/-- The sample meets the hypotheses. -/
example : (∀ i ∈ triCol.items, i.Fits win) ∧
    triCol.lods.all (fun l => l.floats.all fun w => !decide (SNaN w)) = true := by decide +kernel

end Bf2
