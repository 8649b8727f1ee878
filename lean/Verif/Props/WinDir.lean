import Verif.NetDirLemmas
import Verif.ObjectLemmas

/-! # C178: which names `export` makes a directory for, on Windows -/

namespace Bf2

/-- **C178.** A path has no directory exactly if it has neither separator nor drive. -/
theorem C178_bare_iff (p : Str) :
    ntDirname p = [] ↔ '\\' ∉ p ∧ '/' ∉ p ∧ p[1]? ≠ some ':' := by
  by_cases h0 : ∃ c, p[0]? = some c ∧ ntIsSep c = true
  · obtain ⟨s, hs, hsep⟩ := h0
    obtain _ | ⟨s0, t⟩ := p
    · cases hs
    cases hs
    have hr : ¬ ('\\' ∉ s :: t ∧ '/' ∉ s :: t ∧ (s :: t)[1]? ≠ some ':') := by
      rintro ⟨h1, h2, -⟩
      rcases ntIsSep_iff.1 hsep with rfl | rfl
      · exact h1 (by simp)
      · exact h2 (by simp)
    refine iff_of_false ?_ hr
    by_cases h1 : ∃ c, t[0]? = some c ∧ ntIsSep c = true
    · obtain ⟨s', hs', hsep'⟩ := h1
      obtain _ | ⟨s1, t⟩ := t
      · cases hs'
      cases hs'
      exact dir_unc hsep hsep'
    · rw [dir_rooted hsep fun c hc => by simpa using fun hx => h1 ⟨c, hc, hx⟩]
      simp
  · have hp : ∀ c, p[0]? = some c → ntIsSep c = false := fun c hc => by simpa using fun hx => h0 ⟨c, hc, hx⟩
    by_cases hd : p[1]? = some ':'
    · refine iff_of_false ?_ fun h => h.2.2 hd
      match p, hd with
      | x :: y :: t, hd =>
        cases hd
        by_cases h1 : ∃ c, t[0]? = some c ∧ ntIsSep c = true
        · obtain ⟨s', hs', hsep'⟩ := h1
          obtain _ | ⟨s1, t⟩ := t
          · cases hs'
          cases hs'
          rw [dir_drive_root (hp x rfl) hsep']
          simp
        · rw [dir_drive (hp x rfl) fun c hc => by simpa using fun hx => h1 ⟨c, hc, hx⟩]
          simp
    · rw [dir_plain hp hd]
      rcases sep_split p with h | ⟨a, c, b, rfl, hc, hb⟩
      · rw [ntHead_free fun x hx => ntIsSep_false.2 (h x hx)]
        refine iff_of_true rfl ⟨fun h' => h _ h' (.inl rfl), fun h' => h _ h' (.inr rfl), hd⟩
      · rw [ntHead_of (ntIsSep_iff.2 hc) fun x hx => ntIsSep_false.2 (hb x hx), ntRstrip_sep (ntIsSep_iff.2 hc)]
        refine iff_of_false ?_ fun h => ?_
        · obtain _ | ⟨x, a⟩ := a
          · have := hp c rfl
            rw [ntIsSep_iff.2 hc] at this
            cases this
          · rw [ntRstrip_cons (List.mem_cons_self ..) (hp x rfl)]
            simp
        · rcases hc with rfl | rfl
          · exact h.1 (by simp)
          · exact h.2.1 (by simp)

/-- **C178.** Below a directory that is neither a drive nor on the network, with whichever separator:
that directory. -/
theorem C178_under (dir base : Str) (sep last : Char) (hsep : sep = '\\' ∨ sep = '/')
    (named : dir.getLast? = some last) (closed : ¬ (last = '\\' ∨ last = '/'))
    (local' : ∀ c d, dir[0]? = some c → dir[1]? = some d → (c = '\\' ∨ c = '/') → ¬ (d = '\\' ∨ d = '/'))
    (folder : dir[1]? = some ':' → dir.length ≠ 2) (bare : '\\' ∉ base ∧ '/' ∉ base) :
    ntDirname (dir ++ sep :: base) = dir := by
  have hb : ∀ x ∈ base, ntIsSep x = false := fun x hx => ntIsSep_false.2 (by
    rintro (rfl | rfl)
    · exact bare.1 hx
    · exact bare.2 hx)
  have hs := ntIsSep_iff.2 hsep
  have hl := ntIsSep_false.2 closed
  have key : ∀ d : Str, d.getLast? = some last → ntRstrip (ntHead (d ++ sep :: base)) = d := by
    intro d hd
    rw [ntHead_of hs hb, ntRstrip_sep hs]
    obtain ⟨ys, rfl⟩ := List.getLast?_eq_some_iff.1 hd
    exact ntRstrip_last hl
  obtain _ | ⟨x, dir⟩ := dir
  · cases named
  cases hx : ntIsSep x
  · obtain _ | ⟨y, dir⟩ := dir
    · rw [dir_plain]
      · exact key _ named
      · intro c hc
        cases hc
        exact hx
      · intro hc
        cases hc
        rcases hsep with h | h <;> cases h
    · by_cases hy : y = ':'
      · subst hy
        have hne : dir ≠ [] := by
          rintro rfl
          exact folder rfl rfl
        have hd : dir.getLast? = some last := by
          rw [List.getLast?_cons_cons] at named
          obtain ⟨z, t, rfl⟩ := List.exists_cons_of_ne_nil hne
          rwa [List.getLast?_cons_cons] at named
        obtain ⟨z, t, rfl⟩ := List.exists_cons_of_ne_nil hne
        cases hz : ntIsSep z
        · show ntDirname (x :: ':' :: (z :: t ++ sep :: base)) = _
          rw [dir_drive hx, key _ hd]
          intro c hc
          cases hc
          exact hz
        · have ht : t ≠ [] := by
            rintro rfl
            obtain rfl : z = last := by simpa using hd
            rw [hl] at hz
            cases hz
          show ntDirname (x :: ':' :: z :: (t ++ sep :: base)) = _
          rw [dir_drive_root hx hz, key]
          obtain ⟨u, t, rfl⟩ := List.exists_cons_of_ne_nil ht
          rwa [List.getLast?_cons_cons] at hd
      · rw [dir_plain]
        · exact key _ named
        · intro c hc
          cases hc
          exact hx
        · intro hc
          cases hc
          exact hy rfl
  · obtain _ | ⟨y, dir⟩ := dir
    · obtain rfl : x = last := by simpa using named
      rw [hl] at hx
      cases hx
    · show ntDirname (x :: (y :: dir ++ sep :: base)) = _
      rw [dir_rooted hx, key]
      · rwa [List.getLast?_cons_cons] at named
      · intro c hc
        cases hc
        exact ntIsSep_false.2 (local' x y rfl rfl (ntIsSep_iff.1 hx))

/-- A file of a mod. -/
example : ntDirname "C:\\games\\mods/box.staticmesh".toList = "C:\\games\\mods".toList := by decide +kernel

/-- A network path is its own directory up to the share. -/
example : ntDirname "\\\\server\\share".toList = "\\\\server\\share".toList ∧
    ntDirname "\\\\server\\share\\box.staticmesh".toList = "\\\\server\\share\\".toList ∧
    ntDirname "//?/unc/server/share/a/b".toList = "//?/unc/server/share/a".toList := by decide +kernel

/-- **C178.** In the root of a drive, and relative to a drive. -/
theorem C178_drive (x sep : Char) (base : Str) (letter : ¬ (x = '\\' ∨ x = '/')) (hsep : sep = '\\' ∨ sep = '/')
    (bare : '\\' ∉ base ∧ '/' ∉ base) :
    ntDirname (x :: ':' :: sep :: base) = [x, ':', sep] ∧ ntDirname (x :: ':' :: base) = [x, ':'] := by
  have hb : ∀ c ∈ base, ntIsSep c = false := fun c hc => ntIsSep_false.2 (by
    rintro (rfl | rfl)
    · exact bare.1 hc
    · exact bare.2 hc)
  rw [dir_drive_root (ntIsSep_false.2 letter) (ntIsSep_iff.2 hsep), dir_drive (ntIsSep_false.2 letter),
    ntHead_free hb]
  · exact ⟨rfl, rfl⟩
  · intro c hc
    exact hb c (List.mem_of_getElem? hc)

/-- **C178.** On the network, whether with `\\?\UNC` in front or not: a share is its own directory, what lies
in the share has the share with its separator as directory, and what lies in a directory of the share has
that directory. -/
theorem C178_network (start server share : Str) (s t sep : Char) (h : NetStart start) (hs : WinSep s) (ht : WinSep t)
    (hsep : WinSep sep) (plain : server ≠ ['?']) (hf : ∀ c ∈ server, ¬ WinSep c) (hg : ∀ c ∈ share, ¬ WinSep c) :
    ntDirname (start ++ server ++ s :: share) = start ++ server ++ s :: share ∧
    ∀ base : Str, (∀ c ∈ base, ¬ WinSep c) →
      ntDirname (start ++ server ++ s :: (share ++ t :: base)) = start ++ server ++ s :: (share ++ [t]) ∧
      ∀ (dir : Str) (last : Char), dir.getLast? = some last → ¬ WinSep last →
        ntDirname (start ++ server ++ s :: (share ++ t :: (dir ++ sep :: base))) =
          start ++ server ++ s :: (share ++ t :: dir) := by
  have hs' := ntIsSep_iff.2 hs
  have ht' := ntIsSep_iff.2 ht
  have hf' : ∀ c ∈ server, ntIsSep c = false := fun c hc => ntIsSep_false.2 (hf c hc)
  have hg' : ∀ c ∈ share, ntIsSep c = false := fun c hc => ntIsSep_false.2 (hg c hc)
  refine ⟨dir_share h hs' plain hf' hg', fun base hb => ?_⟩
  have hb' : ∀ c ∈ base, ntIsSep c = false := fun c hc => ntIsSep_false.2 (hb c hc)
  refine ⟨?_, fun dir last named closed => ?_⟩
  · rw [dir_net h hs' ht' plain hf' hg', ntHead_free hb']
    simp [ntRstrip]
  · rw [dir_net h hs' ht' plain hf' hg', ntHead_of (ntIsSep_iff.2 hsep) hb', ntRstrip_sep (ntIsSep_iff.2 hsep)]
    obtain ⟨d, rfl⟩ := List.getLast?_eq_some_iff.1 named
    rw [ntRstrip_last (ntIsSep_false.2 closed)]
    simp

/-- A mesh in the directory `maps` of a share, without and with `\\?\UNC\`. -/
example : NetStart "\\\\".toList ∧ NetStart "//?\\uNc/".toList ∧
    ntDirname "\\\\host\\d\\maps/box.staticmesh".toList = "\\\\host\\d\\maps".toList ∧
    ntDirname "//?\\uNc/host\\d\\maps/box.staticmesh".toList = "//?\\uNc/host\\d\\maps".toList :=
  ⟨.short (.inl rfl) (.inl rfl), .long (.inr rfl) (.inr rfl) (.inl rfl) (.inr rfl) (.inl rfl) (.inr rfl) (.inl rfl),
    by decide +kernel, by decide +kernel⟩

/-- **C178.** Without a drive and two separators in front, the directory is that of POSIX for the path with
slashes for its backslashes. -/
theorem C178_as_posix (p : Str)
    (local' : ∀ c d, p[0]? = some c → p[1]? = some d → (c = '\\' ∨ c = '/') → ¬ (d = '\\' ∨ d = '/'))
    (driveless : p[1]? ≠ some ':') : slashed (ntDirname p) = dirname (slashed p) := by
  rcases sep_split p with h | ⟨a, c, b, rfl, hc, hb⟩
  · have hf : ∀ x ∈ p, ntIsSep x = false := fun x hx => ntIsSep_false.2 (h x hx)
    rw [dir_plain (fun c hc => hf c (List.mem_of_getElem? hc)) driveless, ntHead_free hf, slashed_free h]
    unfold dirname
    rw [pathSplit_bare fun hm => h _ hm (.inr rfl)]
    rfl
  · have hc' := ntIsSep_iff.2 hc
    have hb' : ∀ x ∈ b, ntIsSep x = false := fun x hx => ntIsSep_false.2 (hb x hx)
    have e : slashed (a ++ c :: b) = slashed a ++ '/' :: slashed b := by
      unfold slashed
      rw [List.map_append, List.map_cons, slashed_sep hc]
    have hbs : '/' ∉ slashed b := by
      rw [slashed_free hb]
      exact fun hm => hb _ hm (.inr rfl)
    rw [e]
    unfold dirname
    rw [pathSplit_last _ _ hbs]
    obtain _ | ⟨x, a⟩ := a
    · rw [List.nil_append, dir_rooted hc' fun y hy => hb' y (List.mem_of_getElem? hy), ntHead_free hb']
      show slashed [c] = _
      unfold slashed
      simp [slashed_sep hc]
    · cases hx : ntIsSep x
      · rw [if_pos (slashed_other (List.mem_cons_self ..) hx), dir_plain _ driveless, ntHead_of hc' hb',
          ntRstrip_sep hc', rstrip_slashed]
        intro y hy
        cases hy
        exact hx
      · obtain _ | ⟨y, a⟩ := a
        · exact absurd hc (local' x c rfl rfl (ntIsSep_iff.1 hx))
        · have hy : ntIsSep y = false := ntIsSep_false.2 (local' x y rfl rfl (ntIsSep_iff.1 hx))
          rw [if_pos (slashed_other (c := y) (by simp) hy)]
          show slashed (ntDirname (x :: (y :: a ++ c :: b))) = _
          rw [dir_rooted hx, ntHead_of hc' hb', ntRstrip_sep hc', rstrip_slashed, ntRstrip_cons (x := x) (y := y) (by simp) hy]
          intro z hz
          cases hz
          exact hy

/-- With a drive it is not: `C:` is no directory for POSIX. -/
example : ntDirname "C:box.staticmesh".toList = "C:".toList ∧ dirname "C:box.staticmesh".toList = [] := by
  decide +kernel

/-- **C178.** A name with a directory on POSIX has one on Windows; the converse fails exactly for names without
slash that have a backslash or a drive. -/
theorem C178_differ (p : Str) :
    (ntDirname p = [] → dirname p = []) ∧
      ((dirname p = [] ∧ ntDirname p ≠ []) ↔ '/' ∉ p ∧ ('\\' ∈ p ∨ p[1]? = some ':')) := by
  have hp : dirname p = [] ↔ '/' ∉ p := by
    constructor
    · intro h hm
      obtain ⟨a, b, rfl, hb⟩ : ∃ a b, p = a ++ '/' :: b ∧ '/' ∉ b := by
        obtain ⟨a, b, h1, h2⟩ := last_split hm
        exact ⟨a, b, h1, h2⟩
      unfold dirname at h
      rw [pathSplit_last _ _ hb] at h
      split at h
      · next hne =>
        apply hne
        have hall : ∀ c ∈ a, c = '/' := by
          intro c hc
          have : (a.reverse.dropWhile (· == '/')) = [] := by simpa [rstrip] using h
          rw [List.dropWhile_eq_nil_iff] at this
          simpa using this c (List.mem_reverse.2 hc)
        rw [List.eq_replicate_iff]
        refine ⟨rfl, fun c hc => ?_⟩
        rcases List.mem_append.1 hc with hc | hc
        · exact hall c hc
        · simpa using hc
      · simp at h
    · intro h
      unfold dirname
      rw [pathSplit_bare h]
  have hn := C178_bare_iff p
  rw [hp, Ne, hn]
  constructor
  · exact fun h => h.2.1
  · constructor
    · rintro ⟨h1, h2⟩
      refine ⟨h1, ?_⟩
      by_contra hx
      exact h2 ⟨fun h => hx (.inl h), h1, fun h => hx (.inr h)⟩
    · rintro ⟨h1, h2⟩
      refine ⟨h1, fun h => ?_⟩
      rcases h2 with h2 | h2
      · exact h.1 h2
      · exact h.2.2 h2

/-- **C178.** So on Windows, too, exporting to a bare name raises before anything is written: there is no directory
with the empty name and it cannot be made. With all other directories in place no other name does. -/
theorem C178_export (exist : Str → Bool) (makedirs : Str → Option Err) (e : Err) (missing : exist [] = false)
    (refused : makedirs [] = some e) (p : Str) :
    ('\\' ∉ p ∧ '/' ∉ p ∧ p[1]? ≠ some ':' → ntEnsureDir exist makedirs p = some e) ∧
      ((∀ d, d ≠ [] → exist d = true) →
        (ntEnsureDir exist makedirs p = none ↔ ¬ ('\\' ∉ p ∧ '/' ∉ p ∧ p[1]? ≠ some ':'))) := by
  unfold ntEnsureDir
  rw [← C178_bare_iff]
  simp only
  constructor
  · intro h
    rw [h, missing, if_neg (by simp), refused]
  · intro hall
    constructor
    · intro h hn
      rw [hn, missing, if_neg (by simp), refused] at h
      cases h
    · intro h
      rw [hall _ h, if_pos rfl]

/-- A bare name. -/
example : ntEnsureDir (· != []) (fun _ => some .fileNotFoundError) "box.staticmesh".toList = some .fileNotFoundError ∧
    ntEnsureDir (· != []) (fun _ => some .fileNotFoundError) "out\\box.staticmesh".toList = none := by
  decide +kernel

end Bf2
