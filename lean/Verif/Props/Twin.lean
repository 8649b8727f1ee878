import Verif.TwinLemmas

/-!
# C171: the same edits with the package and with the deprecated module

The two modules load the same files and make the same calls: at every point they hold the same mesh, but for the boxes.
-/

namespace Bf2

/-- **C171.** After any such calls the two modules hold the same mesh, boxes apart, and both meshes are in good order. -/
theorem C171_same [Libm F64] {vs : Nat} {o : OldMesh F64} {m : Mesh F64} (twins : Twins vs o m) :
    SameBut o m ∧ OldOrderly vs o ∧ Orderly vs m :=
  ⟨twins.inStep.same, twins.inStep.old, twins.inStep.new⟩

/-- **C171.** Neither module raises in any of these calls. -/
theorem C171_no_errors [Libm F64] {vs : Nat} {o : OldMesh F64} {m : Mesh F64} (twins : Twins vs o m) :
    (∀ d : Vec3 F64, (∀ t ∈ d.toList, t ≠ F64.zero.negate) →
      (oldTranslate o d.toList).2 = none ∧ (translate m d.toList).2 = none) ∧
    (∀ (y p r : F64) (rest : List F64),
      (∀ a ∈ [y, p, r], (Libm.cos (Libm.radians a)).isSome ∧ (Libm.sin (Libm.radians a)).isSome) →
      (oldRotate o (y :: p :: r :: rest)).2 = none ∧ (rotate m (y :: p :: r :: rest)).2 = none) ∧
    ∀ (o' : OldMesh F64) (m' n : Mesh F64), Twins vs o' m' → (o.kind.isStatic = true ∨ o'.kind.isStatic = true) →
      merge m m' = (n, .ok .done) → n.vertices.length ≤ 2 ^ 53 → (oldMerge o o').2 = none :=
  ⟨fun d nz => (twins.inStep.translate d nz).2, fun y p r rest h => (twins.inStep.rotate y p r rest h).2,
    fun _ _ _ t hs h hn => (twins.inStep.merge t.inStep hs h hn).2⟩

/-- **C171.** On any platform, either both modules can save what they hold or none can. -/
theorem C171_saves [Libm F64] {vs : Nat} {o : OldMesh F64} {m : Mesh F64} (twins : Twins vs o m) (pl : Plat) :
    (oldSave pl o).err = none ↔ (exportMesh pl m).err = none := by
  have h := twins.inStep
  obtain ⟨ix, hix⟩ := h.new.many
  rw [h.old.wf.save_err, exportMesh_err h.new.wf hix]
  have e : OldInRange pl o ↔ OldInRange pl m.old := by
    rw [← inRange_boxless, h.same, inRange_boxless]
  rw [e]
  exact ⟨inRange_of_old h.new.wf h.short, InRange.old⟩

/-- **C171.** The files they save have the same length, and loading both gives the same mesh, boxes apart. -/
theorem C171_files [Libm F64] {vs : Nat} {o : OldMesh F64} {m : Mesh F64} (twins : Twins vs o m) {pl : Plat}
    {f g : Bytes} (oldSaved : oldSave pl o = ⟨f, none⟩) (saved : exportMesh pl m = ⟨g, none⟩) :
    f.length = g.length ∧ ∃ r s, load pl m.kind f = .ok r ∧ load pl m.kind g = .ok s ∧ SameBut r.old s := by
  have h := twins.inStep
  have range : OldInRange pl o := h.old.wf.save_err.1 (by rw [oldSaved])
  obtain ⟨f', r, e1, shows, wf, -, e2⟩ := C103_save_reload pl h.old.wf range
  obtain rfl : f = f' := by rw [oldSaved] at e1; injection e1
  have e3 := C02_reload_of_export pl m g h.new.wf saved
  rw [h.kind] at e2
  have hs : SameBut (r.map stored).old (m.map stored) := sameBut_map (shows_sameBut shows h.same) stored
  refine ⟨?_, _, _, e2, e3, hs⟩
  rw [C151_loaded e2, C151_loaded e3]
  exact sameBut_length hs (wf.map _) (h.new.wf.map _) pl

/-! ## A case -/

section
attribute [local instance] quarterTurn

def twinFile : Bytes := (oldSave win staticBox).bytes

def twinMesh : Mesh F64 := staticBox.shown

theorem twinMesh_loads : load win staticKind twinFile = .ok twinMesh ∧
    oldLoad win staticKind twinFile = .ok { staticBox with indexList := false } := by
  constructor <;> decide +kernel

theorem twinMesh_orderly : Orderly 12 twinMesh where
  wf := staticBox_orderly.wf.shown
  verts := ⟨by decide, ⟨[3, 3, 1, 2, 3], by decide +kernel, by decide⟩, by decide +kernel, starts_of rfl,
    by decide +kernel⟩
  index := ⟨by decide +kernel, starts_of rfl, by decide +kernel⟩
  many := ⟨_, rfl⟩
  stride := rfl
  count := by decide +kernel
  size := by decide +kernel
  vectors := by
    have h : ∀ a ∈ twinMesh.vattrs, VectorAttr a → a.vartype = 2 ∧
        ∃ o ∈ [0, 3, 9], StartsAt twinMesh.vertformat a o ∧ o + 3 ≤ 12 := by decide +kernel
    intro a ha hv
    obtain ⟨h1, o, -, h2⟩ := h a ha hv
    exact ⟨h1, o, h2⟩
  fit := by decide +kernel

theorem twinBox : Twins 12 { staticBox with indexList := false } twinMesh :=
  .load twinMesh_loads.1 twinMesh_loads.2 twinMesh_orderly (staticBox_orderly.arrays rfl) (by decide +kernel)

def twinD : Vec3 F64 := ⟨hf 2, hf 4, hf 6⟩
def twinOld1 : OldMesh F64 := (oldTranslate { staticBox with indexList := false } twinD.toList).1
def twinNew1 : Mesh F64 := (translate twinMesh twinD.toList).1
def twinOld2 : OldMesh F64 := (oldRotate twinOld1 [hf 0, hf 0, hf 0]).1
def twinNew2 : Mesh F64 := (rotate twinNew1 [hf 0, hf 0, hf 0]).1
def twinOld3 : OldMesh F64 := (oldMerge twinOld2 { staticBox with indexList := false }).1
def twinNew3 : Mesh F64 := (merge twinNew2 twinMesh).1

theorem pair_snd {α β : Type} {p : α × β} {b : β} (h : p.2 = b) : p = (p.1, b) := by rw [← h]

theorem twinMerged_done : (merge twinNew2 twinMesh).2 = .ok .done := by decide +kernel

theorem twins3 : Twins 12 twinOld3 twinNew3 := by
  have h1 : Twins 12 twinOld1 twinNew1 := by
    unfold twinOld1 twinNew1
    exact twinBox.translate twinD (by decide +kernel)
  have h2 : Twins 12 twinOld2 twinNew2 := by
    unfold twinOld2 twinNew2
    exact h1.rotate (hf 0) (hf 0) (hf 0) [] (by decide +kernel)
  have h3 : merge twinNew2 twinMesh = (twinNew3, .ok .done) := by
    unfold twinNew3
    exact pair_snd twinMerged_done
  unfold twinOld3
  exact .merge h2 twinBox (.inr rfl) h3 (by decide +kernel)

/-- Both modules move a box, turn it and merge it with another box of the same file.  The deprecated module makes the
boxes of the material larger, the package does not. -/
example : Twins 12 twinOld3 twinNew3 ∧ twinNew3.vertnum = 48 ∧
    twinOld3.mats.map Mat.mmax ≠ twinNew3.mats.map Mat.mmax ∧
    (exportMesh win twinNew3).err = none ∧ (oldSave win twinOld3).err = none := by
  have h : twinNew3.vertnum = 48 ∧ (exportMesh win twinNew3).err = none := by decide +kernel
  exact ⟨twins3, h.1, by decide +kernel, h.2, (C171_saves twins3 win).2 h.2⟩

end

end Bf2
