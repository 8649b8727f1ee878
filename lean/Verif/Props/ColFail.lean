import Verif.ColFailLemmas
import Verif.Props.ColFormat
import Verif.Props.Cut

/-!
# C165: every way in which a collision mesh fails to load

C60 says that certain files are rejected.  Here is the converse: what an exception says about the file.
-/

namespace Bf2

/-- **C165.** `ValueError` is raised exactly if the file, of version 9 or later, is well-formed up to the
collision type of some lod, and that is not 0 to 4. -/
theorem C165_value (pl : Plat) (file : Bytes) :
    loadCol (F := F64) pl file = .error .valueError ↔ BadColtype pl file := by
  constructor
  · intro h
    unfold loadCol at h
    split at h
    · cases h
    · next e he =>
      cases h
      rcases readCol_error he with h | h
      · cases h
      · exact h.2
  · rintro ⟨u1, version, gn, sn, ln, t, gs, ss, ls, items, rest, hv, w1, w2, w3, n1, n2, n3, ht, hi, hf, rfl⟩
    exact C60_unknown_coltype_rejected pl u1 version gn sn ln t gs ss ls rest hv w1 w2 w3 n1 n2 n3 ht items hi hf

/-- **C165.** Otherwise a file that does not load raises `struct.error`. -/
theorem C165_struct (pl : Plat) (file : Bytes) :
    loadCol (F := F64) pl file = .error .structError ↔
      (¬ ∃ m : ColMesh F64 ColFace, loadCol pl file = .ok m) ∧ ¬ BadColtype pl file := by
  rw [← C165_value]
  constructor
  · intro h
    rw [h]
    exact ⟨fun ⟨_, h⟩ => (by cases h), fun h => (by cases h)⟩
  · rintro ⟨h1, h2⟩
    unfold loadCol at *
    rcases hr : readCol (F := F64) pl file with e | ⟨m, r⟩
    · rw [hr] at h1 h2
      rcases readCol_error hr with rfl | ⟨rfl, -⟩
      · rfl
      · exact absurd rfl h2
    · rw [hr] at h1
      exact absurd ⟨m, rfl⟩ h1

/-- **C165.** `struct.error` means that bytes are missing: with some bytes appended the file loads or has a
wrong collision type. -/
theorem C165_short (pl : Plat) (file : Bytes) (h : loadCol (F := F64) pl file = .error .structError) :
    ∃ more, more ≠ [] ∧ ((∃ m : ColMesh F64 ColFace, loadCol pl (file ++ more) = .ok m) ∨
      BadColtype pl (file ++ more)) := by
  have hr : readCol (F := F64) pl file = .error .structError := by
    unfold loadCol at h
    split at h
    · cases h
    · next e he => cases h; exact he
  obtain ⟨x, hx⟩ := (OnlyShort.readCol (F := F64) pl).more file hr
  refine ⟨x, ?_, ?_⟩
  · rintro rfl
    rw [List.append_nil] at hx
    exact hx hr
  · rw [← C165_value]
    unfold loadCol
    rcases hy : readCol (F := F64) pl (file ++ x) with e | ⟨m, r⟩
    · rcases readCol_error hy with rfl | ⟨rfl, -⟩
      · exact absurd hy hx
      · exact .inr rfl
    · exact .inl ⟨m, rfl⟩

/-- **C165.** What `ColMesh(filename)` raises: nothing without a name or with an empty one; else what opening
the file raises, else what loading it raises. -/
theorem C165_construct (pl : Plat) (fs : FS) (name : Option Str) (e : Err) :
    constructCol (F := F64) pl fs name = .error e ↔ ∃ s, name = some s ∧ s ≠ [] ∧
      ((fs.read s = .error e ∧
          (e = .fileNotFoundError ∨ e = .notADirectoryError ∨ e = .isADirectoryError)) ∨
        ∃ content, fs.read s = .ok content ∧
          ((e = .valueError ∧ BadColtype pl content) ∨
            (e = .structError ∧ loadCol (F := F64) pl content = .error .structError))) := by
  constructor
  · intro h
    rcases name with _ | (_ | ⟨c, cs⟩)
    · cases h
    · cases h
    · refine ⟨c :: cs, rfl, by simp, ?_⟩
      unfold constructCol at h
      rcases hr : fs.read (c :: cs) with e' | content
      · simp only [hr] at h
        cases h
        exact .inl ⟨rfl, read_error hr⟩
      · simp only [hr] at h
        refine .inr ⟨content, rfl, ?_⟩
        have h' := h
        unfold loadCol at h'
        split at h'
        · cases h'
        · next e' he =>
          cases h'
          rcases readCol_error he with rfl | hb
          · exact .inr ⟨rfl, h⟩
          · exact .inl hb
  · rintro ⟨s, rfl, hs, h⟩
    obtain ⟨c, cs, rfl⟩ := List.exists_cons_of_ne_nil hs
    unfold constructCol
    rcases h with ⟨h, -⟩ | ⟨content, h, ⟨rfl, hb⟩ | ⟨rfl, hl⟩⟩
    · simp only [h]
    · simp only [h]
      exact (C165_value pl content).2 hb
    · simp only [h]
      exact hl

/-- A lod of type 5 in version 10; the same in version 8, where the 5 is a number of faces; and cut inside
the type. -/
example :
    let file : Bytes := [0, 0, 0, 0, 10, 0, 0, 0, 1, 0, 0, 0, 1, 0, 0, 0, 1, 0, 0, 0, 5, 0, 0, 0]
    loadCol (F := F64) win file = .error .valueError ∧
    loadCol (F := F64) win (file.set 4 8) = .error .structError ∧
    loadCol (F := F64) win (file.take 23) = .error .structError := by
  decide +kernel

end Bf2
