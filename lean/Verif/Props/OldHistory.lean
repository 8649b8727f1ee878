import Verif.OldBoxLemmas
import Verif.Props.Format
import Verif.Props.OldFormat
import Verif.Props.OldRotate

/-!
# Saving mesh objects of `/repo/deprecated/modmesh.py`, and histories of edits: C103, C104
-/

namespace Bf2

/-! ## C103: saving any consistent mesh object -/

/-- Saving a mesh object whose counts agree with its lists fails exactly if some integer does not fit
its field. -/
theorem C103_save_iff {F : Type} [FArith F] [FCodec F] (pl : Plat) {o : OldMesh F} (wf : OldWF o) :
    (oldSave pl o).err = none ↔ OldInRange pl o := wf.save_err

/-- What is then written is a file, and the package reads back from it the mesh the object shows, each
float rounded to binary32; the nodes of a lod are copies of the one it holds. -/
theorem C103_save_reload (pl : Plat) {o : OldMesh F64} (wf : OldWF o) (range : OldInRange pl o) :
    ∃ out m, oldSave pl o = ⟨out, none⟩ ∧ Shows o m ∧ MeshWF m ∧ (∀ l ∈ m.lods, SameNodes l) ∧
      load pl o.kind out = .ok (m.map stored) := by
  obtain ⟨out, h1, h2⟩ := wf.save range
  exact ⟨out, o.shown, h1, wf.shows range.vattrs, wf.shown,
    (Mesh.lastNodes_eq_iff.1 o.shown_nodes), h2⟩

/-- What the deprecated loader gives from a file of the package meets the hypotheses of the two
theorems. -/
theorem C103_loaded {F : Type} [FArith F] [FCodec F] (pl : Plat) (k : Kind) (file : Bytes) (m : Mesh F)
    (hm : load pl k file = .ok m) : OldWF m.old ∧ OldInRange pl m.old :=
  ⟨(C06_loaded_wf pl k file m hm).1.old, (C07_integers_in_range pl k file m hm).old⟩

/-- An object that does not come from a file; one with an index that does not fit. -/
example (pl : Plat) : OldWF mockBox ∧ OldInRange pl mockBox ∧
    OldWF { mockBox with index := 65536 :: boxIndex.tail } ∧
    (oldSave pl { mockBox with index := 65536 :: boxIndex.tail }).err ≠ none := by
  have h : OldWF { mockBox with index := 65536 :: boxIndex.tail } := by
    have := boxOf_wf (k := mockBox.kind) rfl rfl
    exact { this with index := rfl }
  refine ⟨boxOf_wf (k := mockBox.kind) rfl rfl, boxOf_range pl mockBox.kind, h, fun he => ?_⟩
  have := (C103_save_iff pl h).1 he
  exact absurd (this.index 65536 (by simp)) (by unfold IsShort; decide)

/-! ## C104: histories of edits -/

section
variable {F : Type} [FArith F] [LawfulLt F] [Libm F]

/-- Any number of calls of `translate`, `rotate`, `rename_texture`, `edit_vertex`, `delete_geom_id` and
`merge`, whatever they do in turn, leaves a mesh object in good order in good order, with the same kind,
head and vertex layout. -/
theorem C104_history {vs : Nat} {m m' : OldMesh F} (order : OldOrderly vs m)
    (history : OldHistory vs m m') : OldOrderly vs m' ∧ OldSameFormat m m' := order.history history

/-- At every point of such a history each call but `rename_texture` succeeds. -/
theorem C104_succeeds {vs : Nat} {m m' : OldMesh F} (order : OldOrderly vs m)
    (history : OldHistory vs m m') {r : OldMesh F × Option Err} (call : OldStep vs m' r) :
    r.2 = none ∨ ∃ geom lod mat map path, r = renameTexture m' geom lod mat map path :=
  ((order.history history).1.step call).1

end

/-- After any such history saving fails exactly if some integer does not fit its field; and otherwise the
package reads back the mesh the object shows, each float rounded to binary32. -/
theorem C104_save_after [Libm F64] (pl : Plat) {vs : Nat} {m m' : OldMesh F64}
    (order : OldOrderly vs m) (history : OldHistory vs m m') :
    ((oldSave pl m').err = none ↔ OldInRange pl m') ∧
    (OldInRange pl m' → ∃ out r, oldSave pl m' = ⟨out, none⟩ ∧ Shows m' r ∧ MeshWF r ∧
      (∀ l ∈ r.lods, SameNodes l) ∧ load pl m.kind out = .ok (r.map stored)) := by
  obtain ⟨h1, h2⟩ := order.history history
  rw [← h2.kind]
  exact ⟨h1.wf.save_err, C103_save_reload pl h1.wf⟩

/-- Translating, saving and reading the file with the package: the save succeeds if it would have before,
and every vertex has its position moved and is otherwise as before, rounded to binary32. -/
theorem C104_translate_save_reload (pl : Plat) {vs o : Nat} {m : OldMesh F64} (order : OldOrderly vs m)
    (pos : Float3At m.vertformat m.vattrs 0 o) (range : OldInRange pl m) (d : Vec3 F64)
    (rest : List F64) :
    ∃ m' out r, oldTranslate m (d.x :: d.y :: d.z :: rest) = (m', none) ∧
      oldSave pl m' = ⟨out, none⟩ ∧ load pl m.kind out = .ok r ∧ r.vertnum = m.vertnum ∧
      ∀ i : Nat, (i : Int) < m.vertnum →
        vert vs r.vertices i = (movedVert o d (vert vs m.vertices i)).map stored := by
  obtain ⟨l, gs, e, hl, hv, hg⟩ :=
    C87_translate_tiled order.packed order.tiled pos order.bounds order.small d rest
  have ho := order.grown hl hg
  obtain ⟨out, h1, h2⟩ := ho.wf.save (range.grown hg)
  refine ⟨_, out, _, e, h1, h2, rfl, fun i hi => ?_⟩
  rw [← hv i hi]
  change vert vs (l.map stored) i = _
  simp only [vert, List.map_take, List.map_drop]

/-- Rotating, saving and reading the file with the package: for given angles there is one map of vectors
which is applied to the positions, normals and tangents of every vertex; the other floats are as before;
all is rounded to binary32. -/
theorem C104_rotate_save_reload [Libm F64] (y p r : F64) (rest : List F64)
    (defined : ∀ a ∈ [y, p, r], (Libm.cos (Libm.radians a)).isSome ∧
      (Libm.sin (Libm.radians a)).isSome) :
    ∃ R : Vec3 F64 → Vec3 F64, ∀ (pl : Plat) (vs oP oN oT : Nat) (m : OldMesh F64), OldOrderly vs m →
      Float3At m.vertformat m.vattrs 0 oP → Float3At m.vertformat m.vattrs 3 oN →
      Float3At m.vertformat m.vattrs 6 oT → OldInRange pl m →
      ∃ m' out q, oldRotate m (y :: p :: r :: rest) = (m', none) ∧ oldSave pl m' = ⟨out, none⟩ ∧
        load pl m.kind out = .ok q ∧ q.vertnum = m.vertnum ∧
        (∀ i : Nat, (i : Int) < m.vertnum → ∀ o ∈ [oP, oN, oT], vec3At q.vertices (i * vs + o) =
          (vec3At m.vertices (i * vs + o)).map fun v => (R v).map stored) ∧
        (∀ i c, c < vs → (∀ o ∈ [oP, oN, oT], c < o ∨ o + 3 ≤ c) →
          q.vertices[i * vs + c]? = m.vertices[i * vs + c]?.map stored) := by
  obtain ⟨R, hR⟩ := C99_one_map y p r rest defined
  refine ⟨R, fun pl vs oP oN oT m order h0 h3 h6 range => ?_⟩
  obtain ⟨l, gs, e, hl, hv, hc, hg⟩ :=
    hR vs oP oN oT m order.packed order.tiled h0 h3 h6 order.bounds order.small
  have ho := order.grown hl hg
  obtain ⟨out, h1, h2⟩ := ho.wf.save (range.grown hg)
  refine ⟨_, out, _, e, h1, h2, rfl, fun i hi o hoo => ?_, fun i c hic hco => ?_⟩
  · have := hv i hi o hoo
    change vec3At (l.map stored) _ = _
    have hmap : vec3At (l.map stored) (i * vs + o) =
        (vec3At l (i * vs + o)).map fun v => v.map stored := by
      unfold vec3At
      simp only [List.getElem?_map]
      rcases l[i * vs + o]? with _ | a <;> rcases l[i * vs + o + 1]? with _ | b <;>
        rcases l[i * vs + o + 2]? with _ | c <;> rfl
    rw [hmap, this, Option.map_map]
    rfl
  · change (l.map stored)[_]? = _
    rw [List.getElem?_map, hc i c hic hco]

/-! ### A history -/

section
attribute [local instance] quarterTurn

/-- `Box()`, said to be static. -/
def staticBox : OldMesh F64 := boxOf staticKind

def staticBox1 : OldMesh F64 := (oldTranslate staticBox [hf 2, hf 4, hf 6]).1
def staticBox2 : OldMesh F64 := { staticBox1 with vertsList := true, indexList := true }
def staticBox3 : OldMesh F64 := (editVertex staticBox2 23 5 [hf 1, hf 1]).1
def staticBox4 : OldMesh F64 := (oldMerge staticBox3 staticBox).1
def staticBox5 : OldMesh F64 := (renameTexture staticBox4 0 0 0 0 [97]).1
def staticBox6 : OldMesh F64 := (oldRotate staticBox5 [hf 0, hf 0, hf 0]).1

theorem staticBox_orderly : OldOrderly 12 staticBox := boxOf_orderly rfl rfl

theorem staticBox_history : OldHistory 12 staticBox staticBox6 := by
  have e : staticBox2.vertnum = 24 := by decide +kernel
  have s1 : OldHistory 12 staticBox staticBox1 :=
    .single ⟨_, .translate ⟨hf 2, hf 4, hf 6⟩ []⟩
  have s2 : OldHistory 12 staticBox staticBox2 := s1.tail ⟨_, .lists⟩
  have f2 := (C104_history staticBox_orderly s2).2
  have s3 : OldHistory 12 staticBox staticBox3 := s2.tail ⟨_, .edit (o := 7) (i := 23) (u := 5)
    (data := [hf 1, hf 1]) (by rw [f2.vattrs]; change ∀ a ∈ boxAttrs, _; unfold EditableAttr; decide)
    (by rw [f2.vattrs, f2.vertformat]; change UsageAt 4 boxAttrs 5 7; unfold UsageAt; decide)
    rfl (by rw [e]; decide) (by decide)⟩
  have f3 := (C104_history staticBox_orderly s3).2
  have s4 : OldHistory 12 staticBox staticBox4 := s3.tail ⟨_, .merge staticBox_orderly f3.vattrs
    (.inr rfl) (by
      have : staticBox3.geoms.map (fun g => g.lods.map fun l => l.materials.length) = [[1]] := by
        decide +kernel
      obtain ⟨g, hg, hl⟩ := List.map_eq_singleton_iff.1 this
      obtain ⟨l, hl, hm⟩ := List.map_eq_singleton_iff.1 hl
      unfold OldSameCounts
      rw [hg]
      refine .cons ?_ .nil
      rw [hl]
      exact .cons hm .nil) (by decide +kernel)⟩
  have s5 : OldHistory 12 staticBox staticBox5 := s4.tail ⟨_, .rename 0 0 0 0 [97]⟩
  exact s5.tail ⟨_, .rotate (hf 0) (hf 0) (hf 0) [] (by decide +kernel)⟩

/-- Moving, editing, merging, renaming, turning: two boxes, the first of them moved. -/
example : OldOrderly 12 staticBox ∧ OldHistory 12 staticBox staticBox6 ∧ staticBox6.vertnum = 48 ∧
    staticBox6.mats.map (fun a => (a.vnum, a.inum, a.maps)) = [(48, 72, [[97]])] ∧
    staticBox6.index.length = 72 ∧
    vec3At staticBox5.vertices 0 = some ⟨hf 3, hf 6, hf 5⟩ ∧
    vec3At staticBox6.vertices 0 ≠ vec3At staticBox5.vertices 0 ∧
    vec3At staticBox5.vertices 288 = some ⟨hf 1, hf 2, hf (-1)⟩ :=
  ⟨staticBox_orderly, staticBox_history, by decide +kernel, by decide +kernel, by decide +kernel,
    by decide +kernel, by decide +kernel, by decide +kernel⟩

end

/-- `Box()` moved, saved and read as a static mesh. -/
example (pl : Plat) : OldOrderly 12 staticBox ∧ Float3At 4 boxAttrs 0 0 ∧ OldInRange pl staticBox :=
  ⟨staticBox_orderly, ⟨⟨0, 0, 2, 0⟩, by decide, by decide⟩, boxOf_range pl staticKind⟩

end Bf2
