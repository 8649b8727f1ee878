import Verif.OldFailLemmas
import Verif.Props.LoadFail
import Verif.Props.OldStages

/-!
# C166: every way in which the deprecated loader fails

C83 says what it does with files that the package loads.  Here is what an exception says about any file.
-/

namespace Bf2

variable {F : Type} [FCodec F]

/-- **C166.** `ZeroDivisionError` is raised exactly if the file says that a vertex number takes no bytes. -/
theorem C166_zero_division (pl : Plat) (k : Kind) (file : Bytes) :
    oldLoad (F := F) pl k file = .error .zeroDivisionError ↔ FormatZero pl file := by
  constructor
  · intro h
    rcases oldLoad_error h with h | ⟨-, h⟩ | ⟨h, -⟩
    · cases h
    · exact h
    · cases h
  · rintro ⟨p, bs, rest, hb, rfl, hz⟩
    refine oldLoad_raises ?_
    exact readParts_raise (n := 10) (by omega) (by omega) (readVerticesPart_zero hb hz)

/-- **C166.** `UnboundLocalError` is raised exactly if all up to the materials can be read, there is a lod,
and the first lod has no material. -/
theorem C166_unbound (pl : Plat) (k : Kind) (file : Bytes) :
    oldLoad (F := F) pl k file = .error .unboundLocalError ↔ NoFirstMaterial F pl k file := by
  constructor
  · intro h
    rcases oldLoad_error h with h | ⟨h, -⟩ | ⟨-, h⟩
    · cases h
    · cases h
    · exact h
  · rintro ⟨p, n, rest, hn, h0, hg, hp⟩
    refine oldLoad_raises ?_
    show readMaterialsPart pl k file = _
    unfold readMaterialsPart
    rw [P.bind_run, hp]
    dsimp only
    rw [P.bind_run, scanGeoms_none hn h0 hg]

/-- **C166.** Otherwise a file that does not load raises `struct.error`. -/
theorem C166_struct (pl : Plat) (k : Kind) (file : Bytes) :
    oldLoad (F := F) pl k file = .error .structError ↔
      (¬ ∃ o : OldMesh F, oldLoad pl k file = .ok o) ∧ ¬ FormatZero pl file ∧
        ¬ NoFirstMaterial F pl k file := by
  rw [← C166_zero_division (F := F) pl k, ← C166_unbound]
  constructor
  · intro h
    rw [h]
    simp
  · rintro ⟨h1, h2, h3⟩
    rcases h : oldLoad (F := F) pl k file with e | o
    · rw [h] at h2 h3
      rcases oldLoad_error h with rfl | ⟨rfl, -⟩ | ⟨rfl, -⟩
      · rfl
      · exact absurd rfl h2
      · exact absurd rfl h3
    · exact absurd ⟨o, h⟩ h1

/-- **C166.** Beside the package: both divide by zero for the same files, and a file with which the package
does not run out of bytes does so here only if it has a single vertex float. -/
theorem C166_package (pl : Plat) (k : Kind) (file : Bytes) :
    (oldLoad (F := F) pl k file = .error .zeroDivisionError ↔
      load (F := F) pl k file = .error .zeroDivisionError) ∧
    (oldLoad (F := F) pl k file = .error .structError →
      load (F := F) pl k file = .error .structError ∨ load (F := F) pl k file = .error .typeError) ∧
    (load (F := F) pl k file = .error .structError →
      oldLoad (F := F) pl k file = .error .structError ∨
      oldLoad (F := F) pl k file = .error .unboundLocalError) := by
  refine ⟨by rw [C166_zero_division, C141_zero_division], fun h => ?_, fun h => ?_⟩
  · rcases hl : load (F := F) pl k file with e | m
    · by_cases h1 : e = .structError
      · exact .inl (by rw [h1])
      by_cases h2 : e = .typeError
      · exact .inr (by rw [h2])
      by_cases h3 : e = .zeroDivisionError
      · rw [h3, C141_zero_division] at hl
        rw [(C166_zero_division pl k file).2 hl] at h
        cases h
      by_cases h4 : e = .attributeError
      · rw [h4, C141_attribute] at hl
        obtain ⟨part, tail, rfl, -, m, hm⟩ := hl
        by_cases hf : FirstEmpty m.lods
        · rw [C83_first_lod_without_material pl k part tail m hm hf] at h
          cases h
        · rw [C83_loads_the_same pl k part tail m hm hf] at h
          cases h
      · exfalso
        refine h1 ?_
        have := (C141_struct (F := F) pl k file).2 ⟨?_, ?_, ?_, ?_⟩
        · rw [this] at hl
          cases hl
          rfl
        · rintro ⟨m, hm⟩
          rw [hl] at hm
          cases hm
        · intro hm
          rw [← C141_attribute, hl] at hm
          cases hm
          exact h4 rfl
        · intro hm
          rw [← C141_zero_division (F := F) pl k, hl] at hm
          cases hm
          exact h3 rfl
        · intro hm
          rw [← C141_type (F := F) pl k, hl] at hm
          cases hm
          exact h2 rfl
    · by_cases hf : FirstEmpty m.lods
      · have := C83_first_lod_without_material pl k file [] m hl hf
        rw [List.append_nil, h] at this
        cases this
      · have := C83_loads_the_same pl k file [] m hl hf
        rw [List.append_nil, h] at this
        cases this
  · rcases ho : oldLoad (F := F) pl k file with e | o
    · rcases oldLoad_error ho with rfl | ⟨rfl, hz⟩ | ⟨rfl, -⟩
      · exact .inl rfl
      · rw [(C141_zero_division pl k file).2 hz] at h
        cases h
      · exact .inr rfl
    · exfalso
      by_cases h1 : o.vertices.length = 1
      · unfold oldLoad at ho
        rcases hb : oldLoadBody (F := F) pl k file with e | ⟨o', r⟩
        · rw [hb] at ho
          cases ho
        · rw [hb] at ho
          cases ho
          obtain ⟨p, r1, r2, hp, hv⟩ := oldLoadBody_preamble hb
          obtain ⟨bs, hbs, rfl⟩ := loadPreamble_sound hp
          have := (C141_type (F := F) pl k _).2 ⟨p, bs, r1, hbs, rfl, oldLoadVertices_one hv h1⟩
          rw [this] at h
          cases h
      · obtain ⟨part, suffix, m, rfl, hm, -, -⟩ := C83_loads_only pl k file o ho h1
        rcases suffix with _ | ⟨c, cs⟩
        · rw [List.append_nil, hm] at h
          cases h
        · rw [(C141_attribute pl k _).2 ⟨part, c :: cs, rfl, by simp, m, hm⟩] at h
          cases h

/-- **C166.** Appended bytes change nothing, except that a file for which `struct.error` was raised may then
load or raise another exception. -/
theorem C166_append (pl : Plat) (k : Kind) (file more : Bytes)
    (h : oldLoad (F := F) pl k file ≠ .error .structError) :
    oldLoad (F := F) pl k (file ++ more) = oldLoad pl k file := by
  unfold oldLoad at *
  rcases hb : oldLoadBody (F := F) pl k file with e | ⟨o, r⟩
  · rw [hb] at h
    rw [(Steady.oldLoadBody pl k).error _ more _ (fun he => h (by rw [he])) hb]
  · rw [(Steady.oldLoadBody pl k).ok _ more _ _ hb]

/-- **C166.** What `LoadBF2Mesh(path)` raises: what opening the file raises, else what its bytes say. -/
theorem C166_path (pl : Plat) (fs : FS) (path : Str) (e : Err) :
    oldLoadPath (F := F) pl fs path = .error e ↔
      (fs.read path = .error e ∧
          (e = .fileNotFoundError ∨ e = .notADirectoryError ∨ e = .isADirectoryError)) ∨
        ∃ content, fs.read path = .ok content ∧
          ((e = .zeroDivisionError ∧ FormatZero pl content) ∨
            (e = .unboundLocalError ∧ NoFirstMaterial F pl (oldKind path) content) ∨
            (e = .structError ∧ oldLoad (F := F) pl (oldKind path) content = .error .structError)) := by
  unfold oldLoadPath
  rcases hr : fs.read path with e' | content
  · constructor
    · intro h
      cases h
      exact .inl ⟨rfl, read_error hr⟩
    · rintro (⟨h, -⟩ | ⟨c, h, -⟩)
      · cases h
        rfl
      · cases h
  · constructor
    · intro h
      refine .inr ⟨content, rfl, ?_⟩
      rcases oldLoad_error h with rfl | h | h
      · exact .inr (.inr ⟨rfl, h⟩)
      · exact .inl h
      · exact .inr (.inl h)
    · rintro (⟨h, -⟩ | ⟨c, h, h'⟩)
      · cases h
      · cases h
        rcases h' with ⟨rfl, h'⟩ | ⟨rfl, h'⟩ | ⟨rfl, h'⟩
        · exact (C166_zero_division pl _ _).2 h'
        · exact (C166_unbound pl _ _).2 h'
        · exact h'

/-- Each of the four happens: the sample file, also with a byte more; a byte less; a lod without material,
whatever follows; and a preamble with a format of 0. -/
example : (oldLoad (F := F64) win staticKind (fileBytes win tiny).bytes).isOk = true ∧
    oldLoad (F := F64) win staticKind ((fileBytes win tiny).bytes ++ [0]) =
      oldLoad (F := F64) win staticKind (fileBytes win tiny).bytes ∧
    oldLoad (F := F64) win staticKind (fileBytes win tiny).bytes.dropLast = .error .structError ∧
    oldLoad (F := F64) win skinnedKind
      (layout win (⟨⟨0, 11, 0, 0, 0⟩, 0, 1, [1], 0, [], 4, 0, 0⟩ : Preamble).items ++
        List.replicate 4 0 ++ List.replicate 24 0 ++ List.replicate 4 0 ++ [0, 0, 0, 0, 7]) =
      .error .unboundLocalError ∧
    oldLoad (F := F64) win staticKind
      (layout win (⟨⟨0, 11, 0, 0, 0⟩, 0, 1, [1], 1, [⟨0, 0, 0, 0⟩], 0, 4, 1⟩ : Preamble).items) =
        .error .zeroDivisionError := by
  decide +kernel

end Bf2
