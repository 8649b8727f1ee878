import Verif.WindowsLemmas
import Verif.Props.Object

/-!
# C163: the kind of a mesh on Windows

The game and its tools run on Windows, where `os.path.splitext` treats `\` as a separator too.  `C14` and all
that speaks of `kindOfName` is about POSIX paths; here is when the two differ.
-/

namespace Bf2

/-- **C163.** On Windows the kind is that of the path with slashes for its backslashes. -/
theorem C163_slashed (p : Str) : ntKindOfName p = kindOfName (slashed p) := by
  unfold ntKindOfName kindOfName
  rw [ntSplitextExt_eq]

/-- **C163.** So it makes no difference which separators are used. -/
theorem C163_either_separator (p q : Str) (h : slashed p = slashed q) : ntKindOfName p = ntKindOfName q := by
  rw [C163_slashed, C163_slashed, h]

/-- **C163.** A path without a backslash has the same kind on both systems. -/
theorem C163_no_backslash (p : Str) (h : '\\' ∉ p) : ntKindOfName p = kindOfName p := by
  have : slashed p = p := by
    unfold slashed
    conv => rhs; rw [← List.map_id p]
    refine List.map_congr_left fun c hc => ?_
    unfold toSlash
    rw [if_neg (by rintro rfl; exact h hc)]
    rfl
  rw [C163_slashed, this]

/-- **C163.** On Windows a name whose last component is nothing but dots and an extension has no kind. -/
theorem C163_hidden (p : Str) (h : HiddenExt p) : ntKindOfName p = noKind ∧ kindOfName p ≠ noKind := by
  obtain ⟨d, n, e, rfl, t, ht, hs⟩ := h
  obtain ⟨s, rfl, h1, h2, h3⟩ := name_shape hs ht
  constructor
  · rw [C163_slashed]
    have e1 : slashed (d ++ '\\' :: (List.replicate n '.' ++ '.' :: s)) =
        (slashed d ++ ['/']) ++ List.replicate n '.' ++ '.' :: s := by
      have e2 : slashed s = s := slashed_free fun c hc => by
        rintro (rfl | rfl)
        · exact h3 hc
        · exact h2 hc
      unfold slashed at e2 ⊢
      simp only [List.map_append, List.map_cons, List.map_replicate, e2, List.append_assoc,
        List.singleton_append]
      rfl
    unfold kindOfName
    rw [e1, splitextExt_of (.inr ⟨_, rfl⟩) (by simp) h2 h1]
    have : notOnlyDots (List.replicate n '.') = false := by
      unfold notOnlyDots
      simp
    rw [this, if_neg (by decide)]
    decide
  · obtain ⟨dd, bb, rfl, hdd, hbb, -, -⟩ := dir_base d
    refine (kind_iff _).2 ⟨t, ht, ?_⟩
    have e1 : dd ++ bb ++ '\\' :: (List.replicate n '.' ++ '.' :: s) =
        dd ++ (bb ++ '\\' :: List.replicate n '.') ++ '.' :: s := by simp
    rw [e1, splitextExt_of hdd (by simp [hbb]) h2 h1, if_pos]
    · exact hs
    · rw [notOnlyDots_iff]
      exact ⟨'\\', by simp, by decide⟩

/-- **C163.** These are the only names with different kinds. -/
theorem C163_differ_iff (p : Str) : ntKindOfName p ≠ kindOfName p ↔ HiddenExt p := by
  constructor
  · intro h
    have hk : kindOfName p ≠ noKind ∧ splitextExt (slashed p) = [] := by
      by_cases he : splitextExt (slashed p) = []
      · refine ⟨fun hn => h ?_, he⟩
        rw [C163_slashed, hn]
        unfold kindOfName
        rw [he]
        decide
      · refine absurd ?_ h
        have := (splitextExt_iff p _ he).2 (ext_of_slashed ((splitextExt_iff (slashed p) _ he).1 rfl))
        rw [C163_slashed]
        unfold kindOfName
        rw [this]
    obtain ⟨t, ht, hs⟩ := (kind_iff _).1 hk.1
    obtain ⟨s, he, h1, h2, h3⟩ := name_shape hs ht
    obtain ⟨dir, base, s', hp, hes, hdir, hb, -, -, c, hc, hcd⟩ :=
      (splitextExt_iff p (splitextExt p) (by rw [he]; simp)).1 rfl
    rw [he] at hp hs
    have free : ∀ b : Str, '/' ∉ b → '\\' ∉ b → slashed b = b := fun b hb1 hb2 => slashed_free fun c hc => by
      rintro (rfl | rfl)
      · exact hb2 hc
      · exact hb1 hc
    have hse : slashed ('.' :: s) = '.' :: s := free _ (by simp [h2]) (by simp [h3])
    by_cases hbs : '\\' ∈ base
    · obtain ⟨b1, b2, rfl, hb2⟩ := last_split hbs
      have hb2' : '/' ∉ b2 := fun hm => hb (by simp [hm])
      by_cases hdots : notOnlyDots b2 = true
      · exfalso
        have e1 : slashed p = slashed (dir ++ b1) ++ ['/'] ++ b2 ++ '.' :: s := by
          have hf := free b2 hb2' hb2
          rw [hp]
          unfold slashed at hf hse ⊢
          simp only [List.map_append, hf, hse, List.map_cons (a := '\\'), List.append_assoc]
          rfl
        rw [e1, splitextExt_of (.inr ⟨_, rfl⟩) hb2' h2 h1, if_pos hdots] at hk
        exact absurd hk.2 (by simp)
      · refine ⟨dir ++ b1, b2.length, '.' :: s, ?_, t, ht, hs⟩
        have : b2 = List.replicate b2.length '.' := by
          rw [List.eq_replicate_iff]
          refine ⟨rfl, fun x hx => ?_⟩
          by_contra hxd
          exact hdots ((notOnlyDots_iff _).2 ⟨x, hx, hxd⟩)
        rw [← this, hp]
        simp
    · exfalso
      have e1 : slashed p = slashed dir ++ base ++ '.' :: s := by
        have hf := free base hb hbs
        rw [hp]
        unfold slashed at hf hse ⊢
        simp only [List.map_append, hf, hse]
      rw [e1, splitextExt_of ?_ hb h2 h1, if_pos ((notOnlyDots_iff _).2 ⟨c, hc, hcd⟩)] at hk
      · exact absurd hk.2 (by simp)
      · rcases hdir with rfl | ⟨d, rfl⟩
        · exact .inl rfl
        · exact .inr ⟨slashed d, by unfold slashed; simp [toSlash]⟩
  · intro h
    obtain ⟨h1, h2⟩ := C163_hidden p h
    rw [h1]
    exact h2.symm

/-! ## Cases -/

/-- The usual names. -/
example : ntKindOfName "objects\\box\\meshes\\box.staticMesh".toList = ⟨false, false, true, false⟩ ∧
    ntKindOfName "objects/box\\meshes/box.staticMesh".toList = ⟨false, false, true, false⟩ ∧
    ntKindOfName "C:mec_kits.skinnedMesh".toList = ⟨true, false, false, false⟩ ∧
    ntKindOfName "box.staticmesh\\x".toList = noKind := by decide +kernel

/-- A file with nothing but an extension for a name, in a directory. -/
example : HiddenExt "meshes\\..SkinnedMesh".toList ∧ ntKindOfName "meshes\\..SkinnedMesh".toList = noKind ∧
    kindOfName "meshes\\..SkinnedMesh".toList = ⟨true, false, false, false⟩ := by
  refine ⟨⟨"meshes".toList, 1, ".SkinnedMesh".toList, by decide, ".skinnedmesh".toList, by decide, ?_⟩,
    by decide +kernel, by decide +kernel⟩
  exact (lower_iff _ _ (by decide)).1 (by decide +kernel)

end Bf2
