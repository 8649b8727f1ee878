import Verif.Props.OldHistory
import Verif.Props.ColFormat

/-!
# The meshes of `/repo/deprecated/mock_mesh.py`: C105
-/

namespace Bf2

/-! ## `Box()` -/

/-- `Box()` is in good order, with vertices of twelve floats, so everything shown for such meshes (C87,
C99, C103, C104) holds for it. -/
theorem C105_box_order : OldOrderly 12 mockBox := boxOf_orderly (k := mockBox.kind) rfl rfl

/-- On every platform `Box()` can be saved, and both modules load exactly it from the file, as a static
mesh. -/
theorem C105_box_save_reload (pl : Plat) :
    ∃ out m, oldSave pl mockBox = ⟨out, none⟩ ∧ load pl staticKind out = .ok m ∧
      Shows { mockBox with kind := staticKind } m ∧ oldLoad pl staticKind out = .ok m.old := by
  obtain ⟨out, h1, h2⟩ := (boxOf_wf (k := staticKind) rfl rfl).save (boxOf_range pl staticKind)
  have e : oldSave pl mockBox = oldSave pl (boxOf staticKind) := rfl
  have hs : (boxOf staticKind).shown.map stored = (boxOf staticKind).shown := by
    conv_rhs => rw [← Mesh.map_id (boxOf staticKind).shown]
    exact Mesh.map_congr (by decide +kernel)
  rw [hs] at h2
  refine ⟨out, _, e.trans h1, h2, (boxOf_wf (k := staticKind) rfl rfl).shows
    (boxOf_range pl staticKind).vattrs, ?_⟩
  have := C83_loads_the_same pl staticKind out [] _ h2 (by decide +kernel)
  rwa [List.append_nil] at this

/-- Position and normal of a vertex of the box. -/
def boxPos (i : Nat) : Option (Vec3 F64) := vec3At mockBox.vertices (i * 12)
def boxNormal (i : Nat) : Option (Vec3 F64) := vec3At mockBox.vertices (i * 12 + 3)

/-- The cross product of `b - a` and `c - a`, exactly. -/
def turn (a b c : Vec3 F64) : Vec3 ℚ :=
  let u : Vec3 ℚ := ⟨b.x.value - a.x.value, b.y.value - a.y.value, b.z.value - a.z.value⟩
  let v : Vec3 ℚ := ⟨c.x.value - a.x.value, c.y.value - a.y.value, c.z.value - a.z.value⟩
  ⟨u.y * v.z - u.z * v.y, u.z * v.x - u.x * v.z, u.x * v.y - u.y * v.x⟩

/-- The triangles of `Box()`: all indices name vertices, and the three vertices of a triangle have one
normal, which is the normal of the triangle in its order of vertices. -/
theorem C105_box_triangles : mockBox.index.length = 36 ∧
    (∀ i ∈ mockBox.index, 0 ≤ i ∧ i < mockBox.vertnum) ∧
    ∀ t < 12, ∃ (i j k : Nat) (a b c : Vec3 F64) (n : Vec3 ℚ), mockBox.index[3 * t]? = some (i : Int) ∧
      mockBox.index[3 * t + 1]? = some (j : Int) ∧ mockBox.index[3 * t + 2]? = some (k : Int) ∧
      boxPos i = some a ∧ boxPos j = some b ∧ boxPos k = some c ∧
      (∀ v ∈ [i, j, k], (boxNormal v).map (fun w => w.map F64.value) = some n) ∧ turn a b c = n := by
  refine ⟨rfl, by decide, ?_⟩
  have key : ∀ t < 12,
      let ix := fun s => ((mockBox.index[3 * t + s]?).getD 0).toNat
      let at_ := fun s => (boxPos (ix s)).getD ⟨m0, m0, m0⟩
      let n := turn (at_ 0) (at_ 1) (at_ 2)
      mockBox.index[3 * t]? = some (ix 0 : Int) ∧
      mockBox.index[3 * t + 1]? = some (ix 1 : Int) ∧ mockBox.index[3 * t + 2]? = some (ix 2 : Int) ∧
      boxPos (ix 0) = some (at_ 0) ∧ boxPos (ix 1) = some (at_ 1) ∧ boxPos (ix 2) = some (at_ 2) ∧
      (∀ v ∈ [ix 0, ix 1, ix 2], (boxNormal v).map (fun w => w.map F64.value) = some n) ∧ n = n := by
    decide +kernel
  exact fun t ht => ⟨_, _, _, _, _, _, _, key t ht⟩

/-- Two boxes do not merge: neither says it is static. -/
theorem C105_boxes_do_not_merge : oldMerge mockBox mockBox = (mockBox, some .notImplementedError) :=
  C93_refused _ _ (.inl ⟨rfl, rfl⟩)

/-- With `isStaticMesh` set on one of them they do: the vertices and indices of both. -/
example : (oldMerge { mockBox with kind := staticKind } mockBox).2 = none ∧
    (oldMerge { mockBox with kind := staticKind } mockBox).1.vertices =
      mockBox.vertices ++ mockBox.vertices ∧
    (oldMerge { mockBox with kind := staticKind } mockBox).1.index =
      mockBox.index ++ mockBox.index.map (· + 24) := by
  decide +kernel

/-! ## `ColBox()` -/

/-- On every platform `ColBox()` can be saved and loads again as it was, but for the attribute `m` loaded
faces get. -/
theorem C105_colbox_save_reload (pl : Plat) :
    ∃ out, writeCol pl mockColBox = ⟨out, none⟩ ∧ loadCol pl out =
      .ok (mockColBox.map id fun f => { f with material := 0, m := some f.material }) := by
  have hf : ∀ i ∈ mockColBox.stored.items, i.Fits pl := by
    obtain ⟨a, b⟩ := pl
    cases a <;> cases b <;> decide +kernel
  have he := (C61_save_writes_layout pl mockColBox _).2 ⟨hf, rfl⟩
  refine ⟨_, he, ?_⟩
  rw [C61_reload_of_save pl _ _ ?_ he]
  · congr 1
    decide +kernel
  · refine ⟨rfl, fun g hg => ?_⟩
    obtain rfl := List.mem_singleton.1 hg
    refine ⟨rfl, fun s hs => ?_⟩
    obtain rfl := List.mem_singleton.1 hs
    refine ⟨rfl, fun l hl => ?_⟩
    simp only [List.mem_cons, List.not_mem_nil, or_false] at hl
    rcases hl with rfl | rfl | rfl | rfl | rfl <;>
      exact ⟨(by decide : (0 : Int) ≤ _ ∧ _ ≤ (4 : Int)), rfl, rfl, rfl, rfl, rfl,
        (rfl : List.length _ = _)⟩

/-- The faces of `ColBox()` name vertices; some vertex is outside the bounds `ColBox()` states. -/
theorem C105_colbox_faces : ∀ l ∈ mockColBox.lods,
    (∀ f ∈ l.faces, ∀ v ∈ [f.v1, f.v2, f.v3], 0 ≤ v ∧ v < l.vertnum) ∧
    ∃ v ∈ l.vertices, FArith.lt v.x l.min.x = true := by
  decide +kernel

end Bf2
