import Verif.ColFailedLemmas
import Verif.Props.ColEdit
import Verif.Props.ColFormat

/-!
# C149: a file left by a `save` of a collision mesh that raised cannot be loaded

C63 says which bytes are left.  Here: for a mesh whose counts agree with its lists they are never a mesh; and
merging large collision meshes leads there.
-/

namespace Bf2

section
variable {F : Type} [FCodec F]

/-- **C149.** Whatever the mesh, writing it raises nothing but `struct.error`. -/
theorem C149_errors (pl : Plat) (m : ColMesh F ColFace) {e : Err} (h : (writeCol pl m).err = some e) :
    e = .structError := StructOnly.col pl m e h

/-- **C149.** What is left in the file makes the loader raise `struct.error`. -/
theorem C149_not_loadable (pl : Plat) (m : ColMesh F ColFace) (counts : ColWF m)
    (h : (writeCol pl m).err ≠ none) : loadCol (F := F) pl (writeCol pl m).bytes = .error .structError := by
  unfold loadCol
  rw [(Follows.col pl m counts).err h]

end

/-- **C149.** It raises exactly if some number of the mesh does not fit its field. -/
theorem C149_raises_iff (pl : Plat) (m : ColMesh F64 ColFace) :
    (writeCol pl m).err = some .structError ↔ ∃ i ∈ m.stored.items, ¬ i.Fits pl := by
  have key := C61_save_writes_layout pl m
  rcases hw : writeCol pl m with ⟨bs, _ | e⟩
  · have := ((key bs).1 hw).1
    simp only [reduceCtorEq, false_iff, not_exists, not_and, not_not]
    exact this
  · have he : e = .structError := C149_errors pl m (by rw [hw])
    rw [he]
    simp only [true_iff]
    by_contra hc
    push Not at hc
    have := (key _).2 ⟨hc, rfl⟩
    rw [hw] at this
    cases this

/-- **C149.** A `save` that gets as far as opening its file: either it raises nothing, and the file loads, or it
raises, and neither the old nor the new mesh can be loaded from it. -/
theorem C149_loads_iff {pl : Plat} {fs fs1 : FS} {m : ColMesh F64 ColFace} {name : Str}
    (hd : fs.ensureDir name = (fs1, none)) {loc : Loc} (hr : fs1.resolve name = .ok loc)
    (hnd : fs1.node loc ≠ some .dir) (counts : ColWF m) (named : name ≠ []) :
    ∃ fs' r, saveCol pl fs m name = (fs', r) ∧
      (r = none ∧ constructCol pl fs' (some name) = .ok (m.map (fun x => unpackF (packF x))
          fun f => { f with material := 0, m := some f.material }) ∨
        r = some .structError ∧ constructCol (F := F64) pl fs' (some name) = .error .structError) := by
  have made : ∀ {fs' : FS} {bytes : Bytes}, Written fs fs' name loc bytes →
      constructCol (F := F64) pl fs' (some name) = loadCol pl bytes := by
    intro fs' bytes hw
    rcases name with _ | ⟨c, cs⟩
    · exact absurd rfl named
    · unfold constructCol
      simp only
      rw [hw.read]
  rcases he : (writeCol pl m).err with _ | e
  · have how : fs1.openWrite name = .ok (fs1.set loc (.file []), loc) := by
      unfold FS.openWrite
      rw [hr]
      simp only
    have hx : ∃ fs', saveCol pl fs m name = (fs', none) := by
      unfold saveCol
      rw [hd]
      simp only
      rw [how]
      simp only
      rcases hm : writeCol pl m with ⟨bs, e⟩
      rw [hm] at he
      simp only at he
      subst he
      exact ⟨_, rfl⟩
    obtain ⟨fs', hx⟩ := hx
    refine ⟨fs', none, hx, .inl ⟨rfl, ?_⟩⟩
    rw [(C63_one_file hx).2.2]
    refine C61_reload_of_save pl m _ counts ?_
    rcases hm : writeCol pl m with ⟨bs, e⟩
    rw [hm] at he
    simp only at he
    rw [he]
  · obtain rfl := C149_errors pl m he
    obtain ⟨fs', hx, hw⟩ := C63_failed_save_truncates hd he hr hnd
    refine ⟨fs', _, hx, .inr ⟨rfl, ?_⟩⟩
    rw [made hw, C149_not_loadable pl m counts (by rw [he]; simp)]

/-- **C149.** Merging two meshes in good order, of which the second has a corner that exceeds 32767 when moved by
the vertex count of its lod: the merged mesh cannot be saved, and the attempt leaves a file that does not load. -/
theorem C149_merge_too_large {h h' : Heap} {a b c : ColMesh F64 Nat} (hm : colMerge h a b = (h', c, none))
    (wa : ColWF a) (wb : ColWF b) (hv : a.version = b.version) (na : ∀ l ∈ a.lods, l.CountsNonneg)
    (nb : ∀ l ∈ b.lods, l.CountsNonneg) (hn : b.allFaces.Nodup) {y : ColLod F64 Nat} (hy : y ∈ b.lods)
    {f : Nat} (hf : f ∈ y.faces) {v : Int} (hc : v ∈ (h f).corners) (large : 32767 < v + y.vertnum) (pl : Plat) :
    (writeCol pl (c.view h')).err = some .structError ∧
      loadCol (F := F64) pl (writeCol pl (c.view h')).bytes = .error .structError := by
  have hw : ColWF (c.view h') := (C65_counts_kept hm wa wb hv na nb).1.map _ _
  have he : (writeCol pl (c.view h')).err = some .structError := by
    rw [C149_raises_iff]
    obtain ⟨i, j, k, hk⟩ := mem_lods_iff.1 hy
    obtain ⟨x, z, hx, hz, -⟩ := ((C65_merge hm).2 i j k).2 y hk
    obtain ⟨hfz, hcor, -⟩ := merged_face hm hn hx hk hz hf
    refine ⟨.sshort (v + y.vertnum), corner_item (mem_lods_iff.2 ⟨i, j, k, hz⟩) hfz ?_, ?_⟩
    · rw [hcor]
      simp only [ColFace.corners, List.mem_cons, List.not_mem_nil, or_false] at hc ⊢
      rcases hc with rfl | rfl | rfl <;> simp
    · intro hfit
      exact absurd hfit.2 (by omega)
  exact ⟨he, C149_not_loadable pl _ hw (by rw [he]; simp)⟩

/-- **C149.** Without the counts a file left by an exception may load, as another mesh. -/
theorem C149_needs_counts : ∃ m : ColMesh F64 ColFace, (writeCol win m).err = some .structError ∧ m.geoms ≠ [] ∧
    loadCol (F := F64) win (writeCol win m).bytes = .ok { m with geoms := [] } :=
  ⟨⟨0, 10, 0, [⟨2 ^ 40, []⟩]⟩, by decide +kernel, by decide +kernel, by decide +kernel⟩

/-- The second lod has a corner that does not fit. -/
def badCorner : ColFile := ⟨0, 10, 1, [⟨1, [⟨2, [triLod, { triLod with faces := [⟨0, 1, 40000, 0⟩] }]⟩]⟩]⟩

theorem badCorner_wf : ColWF badCorner := by
  refine ⟨by decide, ?_⟩
  simp only [badCorner, List.mem_singleton, forall_eq]
  refine ⟨by decide, ?_⟩
  simp only [List.mem_singleton, forall_eq]
  refine ⟨by decide, ?_⟩
  simp only [List.mem_cons, List.not_mem_nil, or_false, forall_eq_or_imp, forall_eq]
  exact ⟨⟨by decide, by decide, by decide, by decide, by decide, by decide, by decide⟩,
    ⟨by decide, by decide, by decide, by decide, by decide, by decide, by decide⟩⟩

/-- A collision mesh in good order with a corner that does not fit, saved over a file: the first lod is written,
and the second up to the corner. -/
example : ColWF badCorner.obj ∧ (writeCol win badCorner.obj).err = some .structError ∧
    (writeCol win badCorner.obj).bytes.length = 187 ∧
    colFS.ensureDir "d/f".toList = (colFS, none) ∧ colFS.resolve "d/f".toList = .ok [['d'], ['f']] ∧
    colFS.node [['d'], ['f']] = some (.file [1, 2, 3]) ∧
    (saveCol win colFS badCorner.obj "d/f".toList).2 = some .structError ∧
    constructCol (F := F64) win (saveCol win colFS badCorner.obj "d/f".toList).1 (some "d/f".toList) =
      .error .structError := by
  refine ⟨badCorner_wf.map _ _, by decide +kernel, by decide +kernel, ?_, by decide +kernel, by decide +kernel,
    by decide +kernel, by decide +kernel⟩
  unfold FS.ensureDir
  rw [if_pos (by decide +kernel)]

/-- A lod of `n` vertices with one face. -/
def manyVertices (n a : Nat) : ColMesh F64 Nat := oneLod (oneFace a (List.replicate n (colPt 1)))

/-- Two meshes of more than 16384 vertices, whose faces use only their own vertices and among them the last one,
merge without an exception, and all that is asked of them holds. -/
example (n : Nat) (hn : 16384 < n) : ∃ (h h' : Heap) (c : ColMesh F64 Nat),
    colMerge h (manyVertices n 0) (manyVertices n 1) = (h', c, none) ∧
    ColWF (manyVertices n 0) ∧ ColWF (manyVertices n 1) ∧ (manyVertices n 1).allFaces.Nodup ∧
    (∀ l ∈ (manyVertices n 0).lods, l.CountsNonneg) ∧ (∀ l ∈ (manyVertices n 1).lods, l.CountsNonneg) ∧
    ∃ y ∈ (manyVertices n 1).lods, 1 ∈ y.faces ∧ (h 1).Within y.vertnum ∧ ((n : Int) - 1) ∈ (h 1).corners ∧
      32767 < ((n : Int) - 1) + y.vertnum := by
  have wf : ∀ a, ColWF (manyVertices n a) := by
    intro a
    refine ⟨rfl, ?_⟩
    simp only [manyVertices, oneLod, List.mem_singleton, forall_eq]
    refine ⟨rfl, ?_⟩
    simp only [List.mem_singleton, forall_eq]
    refine ⟨rfl, ?_⟩
    simp only [List.mem_singleton, forall_eq]
    exact ⟨by rw [if_pos (by decide)]; simp [oneFace, triLod, ColLod.map], rfl, by simp [oneFace],
      by simp [oneFace], rfl, rfl, rfl⟩
  have nn : ∀ a, ∀ l ∈ (manyVertices n a).lods, l.CountsNonneg := by
    intro a l hl
    simp only [manyVertices, oneLod, ColMesh.lods, List.flatMap_cons, List.flatMap_nil, List.append_nil,
      List.mem_singleton] at hl
    subst hl
    simp [ColLod.CountsNonneg, oneFace, triLod, ColLod.map]
  have hm := (C68_index_error (fun _ => ⟨0, 1, n - 1, 0, some 7⟩) (manyVertices n 0) (manyVertices n 1)).1.2 ?_
  · rcases hr : colMerge (fun _ => ⟨0, 1, n - 1, 0, some 7⟩) (manyVertices n 0) (manyVertices n 1) with ⟨h', c, e⟩
    rw [hr] at hm
    simp only at hm
    subst hm
    refine ⟨_, h', c, hr, wf 0, wf 1, ?_, nn 0, nn 1, oneFace 1 (List.replicate n (colPt 1)),
      List.mem_singleton.2 rfl, ?_⟩
    · simp [manyVertices, oneLod, ColMesh.allFaces, ColMesh.lods, oneFace, triLod, ColLod.map]
    have e : (oneFace 1 (List.replicate n (colPt 1))).vertnum = n := by simp [oneFace]
    rw [e]
    refine ⟨by simp [oneFace, triLod, ColLod.map], ?_, by simp [ColFace.corners], by omega⟩
    unfold ColFace.Within
    simp only
    omega
  · refine ⟨le_refl _, ?_⟩
    intro i ga gb ha hb
    rcases i with _ | i
    · cases ha
      cases hb
      refine ⟨le_refl _, ?_⟩
      intro j sa sb ha hb
      rcases j with _ | j
      · cases ha
        cases hb
        exact le_refl _
      · cases ha
    · cases ha

end Bf2
