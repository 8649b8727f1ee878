import Verif.OldSample
import Verif.OldLemmas
import Verif.ObjectLemmas

/-!
# Lemmas on `LoadBF2Mesh` with samples
-/

namespace Bf2

theorem oldLoadBody_kind [FCodec F] {pl : Plat} {k : Kind} {s r : Bytes} {o : OldMesh F}
    (h : oldLoadBody pl k s = .ok (o, r)) : o.kind = k := by
  unfold oldLoadBody at h
  simp only [P.bind_ok] at h
  obtain ⟨_, _, -, _, _, -, _, _, -, _, _, -, _, _, -, _, _, -, _, _, -, _, _, -, _, _, -, _, _, -,
    _, _, -, _, _, -, _, _, -, _, _, -, _, _, -, h⟩ := h
  cases h
  rfl

theorem oldLoad_kind [FCodec F] {pl : Plat} {k : Kind} {s : Bytes} {o : OldMesh F}
    (h : oldLoad pl k s = .ok o) : o.kind = k := by
  unfold oldLoad at h
  split at h
  · cases h
  · next hb => cases h; exact oldLoadBody_kind hb

/-- An entry of a directory, by the joined path. -/
theorem resolve_join {fs : FS} {dir n : Str} {loc : Loc} (h : fs.resolve dir = .ok loc)
    (hd : fs.node loc = some .dir) (hn : n ≠ []) (hs : '/' ∉ n) (h1 : n ≠ ['.']) (h2 : n ≠ ['.', '.']) :
    fs.resolve (pathJoin dir n) = .ok (loc ++ [n]) := by
  have hne : dir ≠ [] := by
    rintro rfl
    simp [FS.resolve] at h
  have last : ∀ l, fs.node l = some .dir → fs.walk l [n] = .ok (l ++ [n]) := by
    intro l hl
    rw [FS.walk, hl]
    simp only
    rw [if_neg (by simp [hn, h1]), if_neg h2]
    rfl
  have start : ∀ s : Str, fs.start (dir ++ s) = fs.start dir := by
    intro s
    unfold FS.start
    rcases dir with _ | ⟨c, cs⟩
    · exact absurd rfl hne
    · rfl
  unfold FS.resolve at h
  rw [if_neg hne] at h
  by_cases hl : dir.getLast? = some '/'
  · obtain ⟨d, rfl⟩ : ∃ d, dir = d ++ ['/'] := by
      rw [List.getLast?_eq_some_iff] at hl
      exact hl
    have hj : pathJoin (d ++ ['/']) n = d ++ ['/'] ++ n := if_pos (Or.inr hl)
    rw [hj, FS.resolve, if_neg (by simp), start]
    rw [components_slash, walk_append] at h
    rw [List.append_assoc, List.singleton_append, components_slash, components_plain hs, walk_append]
    rcases hw : fs.walk (fs.start (d ++ ['/'])) (components d) with e | l
    · rw [hw] at h; cases h
    · rw [hw] at h
      simp only at h ⊢
      have hc : components [] = [[]] := rfl
      rw [hc, FS.walk] at h
      rcases hnode : fs.node l with _ | _ | _
      · rw [hnode] at h; cases h
      · rw [hnode] at h
        simp only [true_or, if_true, FS.walk] at h
        cases h
        exact last _ hnode
      · rw [hnode] at h; cases h
  · have hj : pathJoin dir n = dir ++ '/' :: n := if_neg (by rintro (h | h); exacts [hne h, hl h])
    rw [hj, FS.resolve, if_neg (by simp), start, components_slash, components_plain hs,
      walk_append, h]
    exact last _ hd

end Bf2
