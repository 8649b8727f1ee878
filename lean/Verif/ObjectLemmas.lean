import Verif.ObjectSpec
import Verif.BoundsLemmas

/-! # Lemmas about paths and the file system -/

namespace Bf2

/-! ## `rfind` -/

theorem rfind_none {c : Char} {s : Str} (h : c ∉ s) : rfind c s = -1 := by
  unfold rfind
  have : s.reverse.findIdx? (· == c) = none := by
    rw [List.findIdx?_eq_none_iff]
    intro x hx
    rw [List.mem_reverse] at hx
    simp only [beq_eq_false_iff_ne]
    rintro rfl
    exact h hx
  rw [this]

theorem rfind_append {c : Char} (a b : Str) (h : c ∉ b) : rfind c (a ++ c :: b) = a.length := by
  unfold rfind
  have : (a ++ c :: b).reverse.findIdx? (· == c) = some b.length := by
    rw [List.reverse_append, List.reverse_cons, List.append_assoc, List.findIdx?_append]
    have h1 : b.reverse.findIdx? (· == c) = none := by
      rw [List.findIdx?_eq_none_iff]
      intro x hx
      rw [List.mem_reverse] at hx
      simp only [beq_eq_false_iff_ne]
      rintro rfl
      exact h hx
    rw [h1]
    have h2 : ([c] ++ a.reverse).findIdx? (· == c) = some 0 := by
      rw [List.singleton_append, List.findIdx?_cons]; simp
    rw [h2]
    simp
  rw [this]
  simp only [List.length_append, List.length_cons]
  omega

/-- Split at the last occurrence. -/
theorem last_split {c : Char} {s : Str} (h : c ∈ s) : ∃ a b, s = a ++ c :: b ∧ c ∉ b := by
  induction s with
  | nil => simp at h
  | cons x s ih =>
    by_cases hs : c ∈ s
    · obtain ⟨a, b, rfl, hb⟩ := ih hs
      exact ⟨x :: a, b, rfl, hb⟩
    · rcases List.mem_cons.1 h with rfl | h
      · exact ⟨[], s, rfl, hs⟩
      · exact absurd h hs

theorem last_split_unique {c : Char} {a a' b b' : Str} (h : a ++ c :: b = a' ++ c :: b')
    (hb : c ∉ b) (hb' : c ∉ b') : a = a' ∧ b = b' := by
  have h1 := rfind_append a b hb
  rw [h, rfind_append a' b' hb'] at h1
  have h2 : a.length = a'.length := by omega
  obtain ⟨rfl, h3⟩ := List.append_inj h h2
  exact ⟨rfl, by simpa using h3⟩

/-! ## Extensions -/

theorem notOnlyDots_iff (s : Str) : notOnlyDots s = true ↔ ∃ c ∈ s, c ≠ '.' := by
  simp [notOnlyDots]

/-- Directory part and last component. -/
theorem dir_base (p : Str) : ∃ dir base, p = dir ++ base ∧ (dir = [] ∨ ∃ d, dir = d ++ ['/']) ∧
    '/' ∉ base ∧ (rfind '/' p + 1).toNat = dir.length ∧ 0 ≤ rfind '/' p + 1 := by
  by_cases h : '/' ∈ p
  · obtain ⟨a, b, rfl, hb⟩ := last_split h
    refine ⟨a ++ ['/'], b, by simp, Or.inr ⟨a, rfl⟩, hb, ?_, ?_⟩ <;> rw [rfind_append a b hb]
    · simp only [List.length_append, List.length_cons, List.length_nil]; omega
    · omega
  · refine ⟨[], p, rfl, Or.inl rfl, h, ?_, ?_⟩ <;> rw [rfind_none h] <;> rfl

theorem dir_base_unique {dir dir' base base' : Str} (h : dir ++ base = dir' ++ base')
    (hd : dir = [] ∨ ∃ d, dir = d ++ ['/']) (hd' : dir' = [] ∨ ∃ d, dir' = d ++ ['/'])
    (hb : '/' ∉ base) (hb' : '/' ∉ base') : dir = dir' ∧ base = base' := by
  rcases hd with rfl | ⟨d, rfl⟩ <;> rcases hd' with rfl | ⟨d', rfl⟩
  · exact ⟨rfl, by simpa using h⟩
  · exfalso; apply hb; rw [show base = _ from h]; simp
  · exfalso; apply hb'; rw [show base' = _ from h.symm]; simp
  · obtain ⟨h1, h2⟩ := last_split_unique (c := '/') (by simpa using h) hb hb'
    exact ⟨by rw [h1], h2⟩

theorem splitextExt_of {dir base s : Str} (hd : dir = [] ∨ ∃ d, dir = d ++ ['/'])
    (hb : '/' ∉ base) (hs : '/' ∉ s) (hdot : '.' ∉ s) :
    splitextExt (dir ++ base ++ '.' :: s) =
      if notOnlyDots base then '.' :: s else [] := by
  have h1 : rfind '.' (dir ++ base ++ '.' :: s) = (dir ++ base).length := rfind_append _ _ hdot
  have h2 : rfind '/' (dir ++ base ++ '.' :: s) + 1 = dir.length := by
    rcases hd with rfl | ⟨d, rfl⟩
    · rw [rfind_none]
      · rfl
      · simp [hb, hs]
    · have : d ++ ['/'] ++ base ++ '.' :: s = d ++ '/' :: (base ++ '.' :: s) := by simp
      rw [this, rfind_append]
      · simp
      · simp [hb, hs]
  unfold splitextExt
  simp only
  rw [h1, if_pos (by simp only [List.length_append] at *; omega), h2, pySlice_nat]
  have e1 : (dir ++ base).length - dir.length = base.length := by simp
  rw [e1]
  have e2 : ((dir ++ base ++ '.' :: s).drop dir.length).take base.length = base := by
    rw [List.append_assoc, List.drop_left, List.take_left]
  rw [e2]
  have e3 : (((dir ++ base).length : Nat) : Int).toNat = (dir ++ base).length := by omega
  rw [e3, List.drop_left]

theorem splitextExt_iff (p e : Str) (he : e ≠ []) : splitextExt p = e ↔ ExtOf p e := by
  constructor
  · intro h
    by_cases hdot : '.' ∈ p
    · obtain ⟨a, s, rfl, hs⟩ := last_split hdot
      by_cases hsl : '/' ∈ s
      · exfalso
        obtain ⟨a', b', rfl, hb'⟩ := last_split hsl
        unfold splitextExt at h
        simp only at h
        rw [rfind_append a _ hs] at h
        have : a ++ '.' :: (a' ++ '/' :: b') = (a ++ '.' :: a') ++ '/' :: b' := by simp
        rw [this, rfind_append _ _ hb', if_neg (by
          simp only [List.length_append, List.length_cons]; omega)] at h
        exact he h.symm
      · obtain ⟨dir, base, rfl, hd, hb, -, -⟩ := dir_base a
        rw [splitextExt_of hd hb hsl hs] at h
        split at h
        · rename_i hn
          subst h
          exact ⟨dir, base, s, rfl, rfl, hd, hb, hsl, hs, (notOnlyDots_iff _).1 hn⟩
        · exact absurd h.symm he
    · exfalso
      unfold splitextExt at h
      simp only at h
      rw [rfind_none hdot, if_neg] at h
      · exact he h.symm
      · obtain ⟨_, _, _, _, _, _, h0⟩ := dir_base p
        omega
  · rintro ⟨dir, base, s, rfl, rfl, hd, hb, hs, hdot, hc⟩
    rw [splitextExt_of hd hb hs hdot, if_pos ((notOnlyDots_iff _).2 hc)]

/-- What `lower` does to a character that ends up as a lower case letter or a dot. -/
theorem lowerChar_iff (c t : Char) (ht : ('a' ≤ t ∧ t ≤ 'z') ∨ t = '.') :
    lowerChar c = t ↔ CaseOf c t := by
  have hA : 'A'.toNat = 65 := rfl
  have hZ : 'Z'.toNat = 90 := rfl
  have ha : 'a'.toNat = 97 := rfl
  have hz : 'z'.toNat = 122 := rfl
  have hle : ∀ x y : Char, x ≤ y ↔ x.toNat ≤ y.toNat := fun x y => Iff.rfl
  have hinj : ∀ x y : Char, x = y ↔ x.toNat = y.toNat := fun x y =>
    ⟨fun h => h ▸ rfl, fun h => Char.toNat_inj.1 h⟩
  have hK : (Char.ofNat 0x212A).toNat = 0x212A := by decide
  have hk : 'k'.toNat = 107 := rfl
  have hd : '.'.toNat = 46 := rfl
  have hof : ∀ n, n < 0xd800 → (Char.ofNat n).toNat = n := by
    intro n hn
    have hv : n.isValidChar := Or.inl hn
    unfold Char.ofNat
    rw [dif_pos hv]
    rfl
  rw [hle, hle, ha, hz, hinj t, hd] at ht
  unfold lowerChar CaseOf
  rw [hle 'a' t, hle t 'z', ha, hz]
  split
  · rename_i h1
    rw [hle, hle, hA, hZ] at h1
    rw [hinj, hof _ (by omega), hinj c t, hinj t, hk]
    omega
  · split
    · rename_i h1 h2
      rw [hle, hle, hA, hZ] at h1
      rw [hinj, hK] at h2
      rw [hinj, hinj c t, hinj t, hk]
      omega
    · rename_i h1 h2
      rw [hle, hle, hA, hZ] at h1
      rw [hinj, hK] at h2
      rw [hinj c t, hinj t, hk]
      omega

theorem lower_iff (e t : Str) (ht : ∀ c ∈ t, ('a' ≤ c ∧ c ≤ 'z') ∨ c = '.') :
    lower e = t ↔ SameName e t := by
  unfold lower SameName
  induction t generalizing e with
  | nil => simp
  | cons c t ih =>
    cases e with
    | nil => simp
    | cons d e =>
      rw [List.map_cons, List.cons.injEq, List.forall₂_cons, lowerChar_iff d c (ht c (by simp)),
        ih e fun c hc => ht c (by simp [hc])]

theorem ext_iff (p t : Str) (h0 : t ≠ []) (ht : ∀ c ∈ t, ('a' ≤ c ∧ c ≤ 'z') ∨ c = '.') :
    lower (splitextExt p) = t ↔ ∃ e, ExtOf p e ∧ SameName e t := by
  rw [lower_iff _ _ ht]
  constructor
  · intro h
    refine ⟨_, (splitextExt_iff p _ ?_).1 rfl, h⟩
    intro he
    rw [he] at h
    cases h
    exact h0 rfl
  · rintro ⟨e, he, h⟩
    have hne : e ≠ [] := by
      rintro rfl
      cases h
      exact h0 rfl
    rw [(splitextExt_iff p e hne).2 he]
    exact h

/-! ## Growing file systems -/

theorem Grown.refl (fs : FS) : Grown fs fs := ⟨rfl, fun _ => Or.inl rfl⟩

theorem Grown.trans {a b c : FS} (h1 : Grown a b) (h2 : Grown b c) : Grown a c := by
  refine ⟨h2.1.trans h1.1, fun q => ?_⟩
  rcases h2.2 q with h | ⟨h, h'⟩
  · rw [h]; exact h1.2 q
  · rcases h1.2 q with g | ⟨g, g'⟩
    · rw [g] at h; exact Or.inr ⟨h, h'⟩
    · rw [g'] at h; cases h

theorem Grown.mkdir (fs : FS) (p : Str) : Grown fs (fs.mkdir p).1 := by
  unfold FS.mkdir
  split
  · exact .refl _
  · split
    · exact .refl _
    · split
      · exact .refl _
      · rename_i l _ _ hn
        refine ⟨rfl, fun q => ?_⟩
        by_cases hq : q = l
        · subst hq; exact Or.inr ⟨hn, by simp [FS.set]⟩
        · exact Or.inl (by simp [FS.set, hq])

theorem Grown.makedirsN (n : Nat) (fs : FS) (p : Str) : Grown fs (FS.makedirsN n fs p).1 := by
  induction n generalizing p with
  | zero =>
    unfold FS.makedirsN
    simp only
    split
    · exact .refl _
    · exact .mkdir _ _
  | succ n ih =>
    unfold FS.makedirsN
    simp only
    split
    · have h := ih (makedirsSplit p).1
      rcases hr : FS.makedirsN n fs (makedirsSplit p).1 with ⟨fs', _ | e⟩
      · rw [hr] at h
        simp only
        split
        · exact h
        · exact h.trans (.mkdir _ _)
      · rw [hr] at h
        cases e <;> simp only <;> first | exact h | (split; exact h; exact h.trans (.mkdir _ _))
    · exact .mkdir _ _

theorem Grown.ensureDir (fs : FS) (p : Str) : Grown fs (fs.ensureDir p).1 := by
  unfold FS.ensureDir
  split
  · exact .refl _
  · exact .makedirsN _ _ _

/-- Resolution only looks at directories. -/
theorem walk_mono {fs fs' : FS} (h : ∀ q, fs.node q = some .dir → fs'.node q = some .dir)
    (cs : List Str) (cur l : Loc) (hw : fs.walk cur cs = .ok l) : fs'.walk cur cs = .ok l := by
  induction cs generalizing cur with
  | nil => exact hw
  | cons c cs ih =>
    unfold FS.walk at hw ⊢
    rcases hn : fs.node cur with _ | _ | _
    · rw [hn] at hw; cases hw
    · rw [hn] at hw
      rw [h _ hn]
      simp only at hw ⊢
      split at hw
      · rename_i h1; rw [if_pos h1]; exact ih _ hw
      · rename_i h1
        rw [if_neg h1]
        split at hw
        · rename_i h2; rw [if_pos h2]; exact ih _ hw
        · rename_i h2; rw [if_neg h2]; exact ih _ hw
    · rw [hn] at hw; cases hw

theorem resolve_mono {fs fs' : FS} (hc : fs'.cwd = fs.cwd)
    (h : ∀ q, fs.node q = some .dir → fs'.node q = some .dir)
    (p : Str) (l : Loc) (hw : fs.resolve p = .ok l) : fs'.resolve p = .ok l := by
  unfold FS.resolve FS.start at *
  rw [hc]
  split
  · rename_i h0; rw [if_pos h0] at hw; cases hw
  · rename_i h0; rw [if_neg h0] at hw; exact walk_mono h _ _ _ hw

/-- Opening for writing and writing. -/
theorem openWrite_set {fs fs' : FS} {p : Str} {l : Loc} (h : fs.openWrite p = .ok (fs', l))
    (b : Bytes) : Written fs (fs'.set l (.file b)) p l b := by
  unfold FS.openWrite at h
  rcases hr : fs.resolve p with e | l'
  · rw [hr] at h; cases h
  · rw [hr] at h
    simp only at h
    split at h
    · cases h
    · rename_i hnd
      cases h
      refine ⟨?_, by simp [FS.set], hnd, rfl, fun q hq => Or.inl (by simp [FS.set, hq])⟩
      refine resolve_mono (fs := fs) (fs' := (fs.set l (.file [])).set l (.file b)) rfl
        (fun q hq => ?_) p l hr
      have : q ≠ l := by rintro rfl; exact hnd hq
      simp [FS.set, this, hq]

theorem Written.grown {a b c : FS} {p : Str} {l : Loc} {x : Bytes} (h1 : Grown a b)
    (h2 : Written b c p l x) : Written a c p l x := by
  refine ⟨h2.names, h2.content, ?_, h2.cwd.trans h1.1, fun q hq => ?_⟩
  · rcases h1.2 l with h | ⟨h, -⟩
    · rw [← h]; exact h2.no_dir
    · rw [h]; simp
  · rcases h2.others q hq with h | ⟨h, h'⟩
    · rw [h]; exact h1.2 q
    · rcases h1.2 q with g | ⟨g, g'⟩
      · rw [g] at h; exact Or.inr ⟨h, h'⟩
      · rw [g'] at h; cases h

theorem Written.read {fs fs' : FS} {p : Str} {l : Loc} {x : Bytes} (h : Written fs fs' p l x) :
    fs'.read p = .ok x := by
  unfold FS.read
  rw [h.names]
  simp only
  rw [h.content]

/-! ## `makedirs` never runs out of fuel -/

theorem pathSplit_lengths (p : Str) : (pathSplit p).1.length ≤ p.length ∧
    ((pathSplit p).2 ≠ [] → (pathSplit p).1.length < p.length) := by
  have hrs : ∀ s : Str, (rstrip '/' s).length ≤ s.length := by
    intro s
    unfold rstrip
    rw [List.length_reverse]
    exact (List.dropWhile_sublist _).length_le.trans (by simp)
  have key : ∀ s : Str, s.length ≤ (p.take (rfind '/' p + 1).toNat).length →
      s.length ≤ p.length ∧ (p.drop (rfind '/' p + 1).toNat ≠ [] → s.length < p.length) := by
    intro s hs
    rw [List.length_take] at hs
    refine ⟨by omega, fun h => ?_⟩
    have : 0 < (p.drop (rfind '/' p + 1).toNat).length := List.length_pos_iff.2 h
    rw [List.length_drop] at this
    omega
  unfold pathSplit
  simp only
  split
  · exact key _ (hrs _)
  · exact key _ le_rfl

theorem makedirsSplit_shorter (p : Str) (h : (makedirsSplit p).2 ≠ []) :
    (makedirsSplit p).1.length < p.length := by
  unfold makedirsSplit at *
  simp only at *
  split at h
  · rename_i h0
    rw [if_pos h0]
    exact lt_of_lt_of_le ((pathSplit_lengths _).2 h) (pathSplit_lengths p).1
  · rename_i h0
    rw [if_neg h0]
    exact (pathSplit_lengths p).2 h

theorem makedirsN_fuel (n k : Nat) (fs : FS) (p : Str) (hn : p.length ≤ n) (hk : p.length ≤ k) :
    FS.makedirsN n fs p = FS.makedirsN k fs p := by
  induction n generalizing k p with
  | zero =>
    have hs := fun h => makedirsSplit_shorter p h
    unfold FS.makedirsN
    simp only
    split
    · rename_i h; have := hs h.2.1; omega
    · rfl
  | succ n ih =>
    have hs := fun h => makedirsSplit_shorter p h
    unfold FS.makedirsN
    simp only
    split
    · rename_i h
      have h1 := hs h.2.1
      cases k with
      | zero => omega
      | succ k =>
        simp only
        rw [ih k _ (by omega) (by omega)]
    · rfl

/-- The recursion of `os.makedirs`, without the fuel. -/
theorem makedirs_eq (fs : FS) (p : Str) :
    fs.makedirs p =
      if (makedirsSplit p).1 ≠ [] ∧ (makedirsSplit p).2 ≠ [] ∧
          fs.exists (makedirsSplit p).1 = false then
        match fs.makedirs (makedirsSplit p).1 with
        | (fs', none) => if (makedirsSplit p).2 = ['.'] then (fs', none) else fs'.mkdir p
        | (fs', some .fileExistsError) =>
          if (makedirsSplit p).2 = ['.'] then (fs', none) else fs'.mkdir p
        | (fs', some e) => (fs', some e)
      else fs.mkdir p := by
  unfold FS.makedirs
  cases hp : p.length with
  | zero =>
    have hs := fun h => makedirsSplit_shorter p h
    unfold FS.makedirsN
    simp only
    split
    · rename_i h; have := hs h.2.1; omega
    · rfl
  | succ n =>
    rw [FS.makedirsN]
    split
    · rename_i h
      have := makedirsSplit_shorter p h.2.1
      rw [makedirsN_fuel n (makedirsSplit p).1.length fs _ (by omega) le_rfl]
      rcases FS.makedirsN (makedirsSplit p).1.length fs (makedirsSplit p).1 with ⟨_, _ | e⟩
      · rfl
      · cases e <;> rfl
    · rfl

/-! ## Plain relative paths -/

theorem joined_cons (c : Str) {cs : List Str} (h : cs ≠ []) :
    joined (c :: cs) = c ++ '/' :: joined cs := by
  cases cs with
  | nil => exact absurd rfl h
  | cons d cs => simp [joined, List.intercalate, List.intersperse]

theorem joined_concat {cs : List Str} (h : cs ≠ []) (c : Str) :
    joined (cs ++ [c]) = joined cs ++ '/' :: c := by
  induction cs with
  | nil => exact absurd rfl h
  | cons d cs ih =>
    by_cases hc : cs = []
    · subst hc; simp [joined, List.intercalate, List.intersperse]
    · rw [List.cons_append, joined_cons d (by simp), ih hc, joined_cons d hc]
      simp

theorem joined_single (c : Str) : joined [c] = c := by
  simp [joined, List.intercalate]

theorem components_joined {cs : List Str} (h0 : cs ≠ []) (h : ∀ c ∈ cs, PlainName c) :
    components (joined cs) = cs := by
  unfold components joined
  exact List.splitOn_intercalate _ (fun c hc => (h c hc).2.2.2) h0

theorem joined_head {cs : List Str} (h : ∀ c ∈ cs, PlainName c) : (joined cs).head? ≠ some '/' := by
  cases cs with
  | nil => simp [joined, List.intercalate]
  | cons c cs =>
    have hc := h c (by simp)
    by_cases hcs : cs = []
    · subst hcs
      rw [joined_single]
      intro h1
      exact hc.2.2.2 (List.mem_of_mem_head? h1)
    · rw [joined_cons c hcs]
      intro h1
      rw [List.head?_append_of_ne_nil _ hc.1] at h1
      exact hc.2.2.2 (List.mem_of_mem_head? h1)

theorem joined_ne {cs : List Str} (h0 : cs ≠ []) (h : ∀ c ∈ cs, PlainName c) : joined cs ≠ [] := by
  cases cs with
  | nil => exact absurd rfl h0
  | cons c cs =>
    have hc := h c (by simp)
    by_cases hcs : cs = []
    · subst hcs; rw [joined_single]; exact hc.1
    · rw [joined_cons c hcs]; simp

/-- No slash at the end. -/
theorem rstrip_append (a c : Str) (h : c ≠ []) (hc : '/' ∉ c) : rstrip '/' (a ++ c) = a ++ c := by
  unfold rstrip
  rw [List.reverse_append]
  have hr : c.reverse ≠ [] := by simpa using h
  rcases hx : c.reverse with _ | ⟨x, xs⟩
  · exact absurd hx hr
  · have : x ≠ '/' := by
      rintro rfl
      apply hc
      rw [← List.mem_reverse, hx]
      simp
    rw [List.cons_append, List.dropWhile_cons_of_neg (by simpa using this), ← List.cons_append, ← hx,
      ← List.reverse_append, List.reverse_reverse]

theorem rstrip_joined {cs : List Str} (h : ∀ c ∈ cs, PlainName c) :
    rstrip '/' (joined cs) = joined cs := by
  rcases List.eq_nil_or_concat cs with rfl | ⟨ds, d, rfl⟩
  · simp [joined, List.intercalate, rstrip]
  · have hd := h d (by simp)
    rw [List.concat_eq_append]
    by_cases h0 : ds = []
    · subst h0
      rw [List.nil_append, joined_single]
      exact rstrip_append [] d hd.1 hd.2.2.2
    · rw [joined_concat h0]
      have : joined ds ++ '/' :: d = (joined ds ++ ['/']) ++ d := by simp
      rw [this]
      exact rstrip_append _ d hd.1 hd.2.2.2

theorem rstrip_slash (a : Str) : rstrip '/' (a ++ ['/']) = rstrip '/' a := by
  unfold rstrip
  rw [List.reverse_append]
  rfl

theorem pathSplit_joined {cs : List Str} (h0 : cs ≠ []) (h : ∀ c ∈ cs, PlainName c) {c : Str}
    (hc : '/' ∉ c) : pathSplit (joined cs ++ '/' :: c) = (joined cs, c) := by
  have e : joined cs ++ '/' :: c = (joined cs ++ ['/']) ++ c := by simp
  have hi : (rfind '/' (joined cs ++ '/' :: c) + 1).toNat = (joined cs ++ ['/']).length := by
    rw [rfind_append _ _ hc, List.length_append]
    simp only [List.length_cons, List.length_nil]
    omega
  unfold pathSplit
  simp only
  rw [hi, e, List.take_left, List.drop_left]
  have hne := joined_ne h0 h
  have hh := joined_head h
  rw [if_pos]
  · rw [rstrip_slash, rstrip_joined h]
  · refine ⟨by simp, fun heq => ?_⟩
    rcases hj : joined cs with _ | ⟨x, xs⟩
    · exact hne hj
    · rw [hj] at heq hh
      rw [List.cons_append, List.length_cons, List.replicate_succ, List.cons.injEq] at heq
      rw [heq.1] at hh
      simp at hh

theorem pathSplit_bare {c : Str} (hc : '/' ∉ c) : pathSplit c = ([], c) := by
  unfold pathSplit
  simp only
  rw [rfind_none hc]
  simp

theorem walk_plain {fs : FS} (cs : List Str) (h : ∀ c ∈ cs, PlainName c) (cur : Loc)
    (hd : ∀ i, i < cs.length → fs.node (cur ++ cs.take i) = some .dir) :
    fs.walk cur cs = .ok (cur ++ cs) := by
  induction cs generalizing cur with
  | nil => simp [FS.walk]
  | cons c cs ih =>
    have hc := h c (by simp)
    have h1 := hd 0 (by simp)
    simp only [List.take_zero, List.append_nil] at h1
    unfold FS.walk
    rw [h1]
    simp only
    rw [if_neg (by simp [hc.1, hc.2.1]), if_neg hc.2.2.1,
      ih (fun d hd => h d (by simp [hd])) (cur ++ [c])]
    · simp
    · intro i hi
      have := hd (i + 1) (by simp; omega)
      rw [List.take_succ_cons] at this
      simpa using this

theorem walk_plain_missing {fs : FS} (cs : List Str) (h : ∀ c ∈ cs, PlainName c) (cur : Loc)
    (k : Nat) (hk : k < cs.length)
    (hd : ∀ i, i < k → fs.node (cur ++ cs.take i) = some .dir)
    (hn : fs.node (cur ++ cs.take k) = none) :
    fs.walk cur cs = .error .fileNotFoundError := by
  induction cs generalizing cur k with
  | nil => simp at hk
  | cons c cs ih =>
    have hc := h c (by simp)
    cases k with
    | zero =>
      simp only [List.take_zero, List.append_nil] at hn
      unfold FS.walk
      rw [hn]
    | succ k =>
      have h1 := hd 0 (by omega)
      simp only [List.take_zero, List.append_nil] at h1
      unfold FS.walk
      rw [h1]
      simp only
      rw [if_neg (by simp [hc.1, hc.2.1]), if_neg hc.2.2.1]
      refine ih (fun d hd => h d (by simp [hd])) (cur ++ [c]) k (by simp at hk; omega) ?_ ?_
      · intro i hi
        have := hd (i + 1) (by omega)
        rw [List.take_succ_cons] at this
        simpa using this
      · rw [List.take_succ_cons] at hn
        simpa using hn

theorem resolve_joined {fs : FS} {cs : List Str} (h0 : cs ≠ []) (h : ∀ c ∈ cs, PlainName c) :
    fs.resolve (joined cs) = fs.walk fs.cwd cs := by
  unfold FS.resolve FS.start
  rw [if_neg (joined_ne h0 h), if_neg (joined_head h), components_joined h0 h]

theorem mkdir_joined {fs : FS} {cs : List Str} (h0 : cs ≠ []) (h : ∀ c ∈ cs, PlainName c)
    (hd : ∀ i, i < cs.length → fs.node (fs.cwd ++ cs.take i) = some .dir)
    (hn : fs.node (fs.cwd ++ cs) = none) :
    fs.mkdir (joined cs) = (fs.set (fs.cwd ++ cs) .dir, none) := by
  unfold FS.mkdir FS.start
  rw [if_neg (joined_ne h0 h), if_neg (joined_head h), rstrip_joined h, components_joined h0 h,
    walk_plain cs h _ hd]
  simp only
  rw [hn]

/-- `makedirs` of a plain relative path makes what is missing on the way, and nothing else. -/
theorem makedirs_joined {fs : FS} (cs : List Str) (h0 : cs ≠ []) (h : ∀ c ∈ cs, PlainName c)
    (hw : FreeWay fs cs) (hn : fs.node (fs.cwd ++ cs) = none) :
    ∃ fs', fs.makedirs (joined cs) = (fs', none) ∧ fs'.cwd = fs.cwd ∧
      (∀ i, i ≤ cs.length → fs'.node (fs.cwd ++ cs.take i) = some .dir) ∧
      ∀ q, (∀ i, i ≤ cs.length → q ≠ fs.cwd ++ cs.take i) → fs'.node q = fs.node q := by
  induction cs using List.reverseRecOn with
  | nil => exact absurd rfl h0
  | append_singleton cs c ih =>
    have hc := h c (by simp)
    have hcs : ∀ d ∈ cs, PlainName d := fun d hd => h d (by simp [hd])
    obtain ⟨hcwd, k, hk, hdir, hnone⟩ := hw
    have hlen : (cs ++ [c]).length = cs.length + 1 := by simp
    have htake : ∀ i, i ≤ cs.length → (cs ++ [c]).take i = cs.take i := by
      intro i hi
      rw [List.take_append_of_le_length hi]
    have hfull : (cs ++ [c]).take (cs.length + 1) = cs ++ [c] := by
      rw [← hlen, List.take_length]
    have hk' : k ≤ cs.length := by
      by_contra hlt
      have := hdir (cs.length + 1) (by omega)
      rw [hfull, hn] at this
      cases this
    -- making the last directory in a file system that has all the others
    have last : ∀ fs1 : FS, fs1.cwd = fs.cwd →
        (∀ i, i ≤ cs.length → fs1.node (fs.cwd ++ cs.take i) = some .dir) →
        (∀ q, (∀ i, i ≤ cs.length → q ≠ fs.cwd ++ cs.take i) → fs1.node q = fs.node q) →
        ∃ fs', fs1.mkdir (joined (cs ++ [c])) = (fs', none) ∧ fs'.cwd = fs.cwd ∧
          (∀ i, i ≤ (cs ++ [c]).length → fs'.node (fs.cwd ++ (cs ++ [c]).take i) = some .dir) ∧
          ∀ q, (∀ i, i ≤ (cs ++ [c]).length → q ≠ fs.cwd ++ (cs ++ [c]).take i) →
            fs'.node q = fs.node q := by
      intro fs1 e1 e2 e3
      have hfresh : ∀ i, i ≤ cs.length → fs.cwd ++ (cs ++ [c]) ≠ fs.cwd ++ cs.take i := by
        intro i hi heq
        have := congrArg List.length heq
        simp only [List.length_append, List.length_take, List.length_cons, List.length_nil] at this
        omega
      refine ⟨fs1.set (fs1.cwd ++ (cs ++ [c])) .dir, ?_, e1, ?_, ?_⟩
      · refine mkdir_joined (by simp) h ?_ ?_
        · intro i hi
          rw [e1, htake i (by omega)]
          exact e2 i (by omega)
        · rw [e1, e3 _ hfresh, hn]
      · intro i hi
        rcases Nat.lt_or_ge cs.length i with hlt | hge
        · have : i = cs.length + 1 := by omega
          rw [this, hfull, e1]
          simp [FS.set]
        · rw [htake i hge, e1]
          unfold FS.set
          simp only
          rw [if_neg (fun e => hfresh i hge e.symm)]
          exact e2 i hge
      · intro q hq
        have hne : q ≠ fs.cwd ++ (cs ++ [c]) := by
          have := hq (cs.length + 1) (by omega)
          rwa [hfull] at this
        rw [e1]
        unfold FS.set
        simp only
        rw [if_neg hne]
        exact e3 q fun i hi => by
          have := hq i (by omega)
          rwa [htake i hi] at this
    rw [makedirs_eq]
    by_cases hnil : cs = []
    · subst hnil
      have hsp : makedirsSplit (joined ([] ++ [c])) = ([], c) := by
        unfold makedirsSplit
        rw [List.nil_append, joined_single, pathSplit_bare hc.2.2.2]
        simp only
        rw [if_neg hc.1]
      rw [hsp, if_neg (by simp)]
      refine last fs rfl ?_ (fun _ _ => rfl)
      intro i hi
      simp only [List.length_nil, Nat.le_zero] at hi
      subst hi
      simpa using hcwd
    · have hsp : makedirsSplit (joined (cs ++ [c])) = (joined cs, c) := by
        unfold makedirsSplit
        rw [joined_concat hnil, pathSplit_joined hnil hcs hc.2.2.2]
        simp only
        rw [if_neg hc.1]
      rw [hsp]
      simp only
      by_cases hkl : k = cs.length
      · have hex : fs.exists (joined cs) = true := by
          unfold FS.exists
          rw [resolve_joined hnil hcs, walk_plain cs hcs]
          · simp only
            have := hdir cs.length (by omega)
            rw [htake _ le_rfl, List.take_length] at this
            rw [this]
            rfl
          · intro i hi
            rw [← htake i (by omega)]
            exact hdir i (by omega)
        rw [hex, if_neg (by simp)]
        refine last fs rfl ?_ (fun _ _ => rfl)
        intro i hi
        rw [← htake i hi]
        exact hdir i (by omega)
      · have hex : fs.exists (joined cs) = false := by
          unfold FS.exists
          rw [resolve_joined hnil hcs]
          by_cases hk1 : k + 1 = cs.length
          · rw [walk_plain cs hcs]
            · simp only
              have := hnone cs.length (by omega) (by omega)
              rw [htake _ le_rfl, List.take_length] at this
              rw [this]
              rfl
            · intro i hi
              rw [← htake i (by omega)]
              exact hdir i (by omega)
          · rw [walk_plain_missing cs hcs fs.cwd (k + 1) (by omega)]
            · intro i hi
              rw [← htake i (by omega)]
              exact hdir i (by omega)
            · rw [← htake _ (by omega)]
              exact hnone (k + 1) (by omega) (by omega)
        rw [hex, if_pos ⟨joined_ne hnil hcs, hc.1, rfl⟩]
        have hfw : FreeWay fs cs := by
          refine ⟨hcwd, k, hk', fun i hi => ?_, fun i h1 h2 => ?_⟩
          · rw [← htake i (by omega)]; exact hdir i hi
          · rw [← htake i h2]; exact hnone i h1 (by omega)
        have hn' : fs.node (fs.cwd ++ cs) = none := by
          have := hnone cs.length (by omega) (by omega)
          rwa [htake _ le_rfl, List.take_length] at this
        obtain ⟨fs1, e0, e1, e2, e3⟩ := ih hnil hcs hfw hn'
        rw [e0]
        simp only
        rw [if_neg hc.2.1]
        exact last fs1 e1 e2 e3

/-- The directory of a plain relative path is there after `ensureDir`. -/
theorem ensureDir_joined {fs : FS} {cs : List Str} {c : Str} (h0 : cs ≠ [])
    (h : ∀ d ∈ cs, PlainName d) (hc : PlainName c) (hw : FreeWay fs cs) :
    ∃ fs', fs.ensureDir (joined (cs ++ [c])) = (fs', none) ∧ fs'.cwd = fs.cwd ∧
      (∀ i, i ≤ cs.length → fs'.node (fs.cwd ++ cs.take i) = some .dir) ∧
      ∀ q, (∀ i, i ≤ cs.length → q ≠ fs.cwd ++ cs.take i) → fs'.node q = fs.node q := by
  have hdn : dirname (joined (cs ++ [c])) = joined cs := by
    unfold dirname
    rw [joined_concat h0, pathSplit_joined h0 h hc.2.2.2]
  unfold FS.ensureDir
  rw [hdn]
  have hw' := hw
  obtain ⟨hcwd, k, hk, hdir, hnone⟩ := hw
  by_cases hkl : k = cs.length
  · have hex : fs.exists (joined cs) = true := by
      unfold FS.exists
      rw [resolve_joined h0 h, walk_plain cs h _ fun i hi => hdir i (by omega)]
      simp only
      have := hdir cs.length (by omega)
      rw [List.take_length] at this
      rw [this]
      rfl
    rw [hex, if_pos rfl]
    exact ⟨fs, rfl, rfl, fun i hi => hdir i (by omega), fun _ _ => rfl⟩
  · have hn : fs.node (fs.cwd ++ cs) = none := by
      have := hnone cs.length (by omega) le_rfl
      rwa [List.take_length] at this
    have hex : fs.exists (joined cs) = false := by
      unfold FS.exists
      rw [resolve_joined h0 h]
      by_cases hk1 : k + 1 = cs.length
      · rw [walk_plain cs h _ fun i hi => hdir i (by omega)]
        simp only
        rw [hn]
        rfl
      · rw [walk_plain_missing cs h fs.cwd (k + 1) (by omega) (fun i hi => hdir i (by omega))
          (hnone (k + 1) (by omega) (by omega))]
    rw [hex, if_neg (by simp)]
    exact makedirs_joined cs h0 h hw' hn

theorem walk_append {fs : FS} (a b : List Str) (cur : Loc) :
    fs.walk cur (a ++ b) = match fs.walk cur a with
      | .error e => .error e
      | .ok l => fs.walk l b := by
  induction a generalizing cur with
  | nil => rfl
  | cons c cs ih =>
    rw [List.cons_append, FS.walk, FS.walk]
    rcases fs.node cur with _ | _ | _
    · rfl
    · simp only
      split
      · exact ih _
      · split
        · exact ih _
        · exact ih _
    · rfl

theorem components_slash (a b : Str) : components (a ++ '/' :: b) = components a ++ components b :=
  List.splitOn_append_cons_self ..

theorem components_plain {n : Str} (h : '/' ∉ n) : components n = [n] :=
  List.splitOn_eq_singleton h

theorem pathSplit_last (a b : Str) (hb : '/' ∉ b) : pathSplit (a ++ '/' :: b) =
    if a ++ ['/'] ≠ List.replicate (a ++ ['/']).length '/' then (rstrip '/' a, b)
    else (a ++ ['/'], b) := by
  have e : a ++ '/' :: b = (a ++ ['/']) ++ b := by simp
  have hi : (rfind '/' (a ++ '/' :: b) + 1).toNat = (a ++ ['/']).length := by
    rw [rfind_append _ _ hb, List.length_append]
    simp only [List.length_cons, List.length_nil]
    omega
  unfold pathSplit
  simp only
  rw [hi, e, List.take_left, List.drop_left, rstrip_slash]
  by_cases h : a ++ ['/'] = List.replicate (a ++ ['/']).length '/'
  · rw [if_neg (by rintro ⟨-, h'⟩; exact h' h), if_neg (by simpa using h)]
  · rw [if_pos ⟨by simp, h⟩, if_pos h]

/-- What is left of a string without the slashes at its end. -/
theorem rstrip_split (a : Str) : ∃ k, a = rstrip '/' a ++ List.replicate k '/' := by
  refine ⟨(a.reverse.takeWhile (· == '/')).length, ?_⟩
  have h : a.reverse.takeWhile (· == '/') =
      List.replicate (a.reverse.takeWhile (· == '/')).length '/' := by
    rw [List.eq_replicate_iff]
    refine ⟨rfl, fun c hc => ?_⟩
    simpa using List.all_eq_true.1 List.all_takeWhile c hc
  unfold rstrip
  conv_lhs => rw [← List.reverse_reverse a,
    ← List.takeWhile_append_dropWhile (p := (· == '/')) (l := a.reverse), List.reverse_append, h,
    List.reverse_replicate]

theorem walk_empties {fs : FS} {cur l : Loc} (k : Nat)
    (h : fs.walk cur (List.replicate k []) = .ok l) : l = cur := by
  induction k with
  | zero => cases h; rfl
  | succ k ih =>
    rw [List.replicate_succ, FS.walk] at h
    rcases hn : fs.node cur with _ | _ | _
    · rw [hn] at h; cases h
    · rw [hn] at h
      simp only [true_or, if_true] at h
      exact ih h
    · rw [hn] at h; cases h

theorem components_slashes (a : Str) (k : Nat) :
    components (a ++ List.replicate k '/') = components a ++ List.replicate k [] := by
  induction k generalizing a with
  | zero => simp
  | succ k ih =>
    rw [List.replicate_succ', ← List.append_assoc, components_slash, ih, List.replicate_succ',
      List.append_assoc]
    rfl

/-- When a path with a slash can be resolved, its directory exists. -/
theorem dirname_exists {fs : FS} {p : Str} {loc : Loc} (hs : '/' ∈ p) (h : fs.resolve p = .ok loc) :
    fs.exists (dirname p) = true := by
  obtain ⟨a, b, rfl, hb⟩ := last_split hs
  unfold FS.resolve at h
  rw [if_neg (by simp), components_slash, components_plain hb, walk_append] at h
  rcases hw : fs.walk (fs.start (a ++ '/' :: b)) (components a) with e | l
  · rw [hw] at h; cases h
  rw [hw] at h
  simp only [FS.walk] at h
  have hd : fs.node l = some .dir := by
    rcases hn : fs.node l with _ | _ | _
    · rw [hn] at h; cases h
    · rfl
    · rw [hn] at h; cases h
  have found : ∀ q : Str, q ≠ [] → fs.walk (fs.start q) (components q) = .ok l →
      fs.exists q = true := by
    intro q hq hl
    unfold FS.exists FS.resolve
    rw [if_neg hq, hl]
    simp [hd]
  unfold dirname
  rw [pathSplit_last a b hb]
  split
  · next hne =>
    obtain ⟨k, hk⟩ := rstrip_split a
    have hr : rstrip '/' a ≠ [] := by
      intro h0
      rw [h0, List.nil_append] at hk
      apply hne
      rw [hk]
      simp [← List.replicate_succ']
    refine found _ hr ?_
    have hw' := hw
    rw [hk, components_slashes, walk_append] at hw'
    have e : fs.start (rstrip '/' a ++ List.replicate k '/' ++ '/' :: b) = fs.start (rstrip '/' a) := by
      unfold FS.start
      rcases hx : rstrip '/' a with _ | ⟨c, cs⟩
      · exact absurd hx hr
      · rfl
    rw [e] at hw'
    rcases hw2 : fs.walk (fs.start (rstrip '/' a)) (components (rstrip '/' a)) with e | l'
    · rw [hw2] at hw'; cases hw'
    · rw [hw2] at hw'
      rw [walk_empties k hw']
  · next he =>
    refine found _ (by simp) ?_
    rw [components_slash, walk_append]
    have e : fs.start (a ++ ['/']) = fs.start (a ++ '/' :: b) := by
      unfold FS.start
      rcases a with _ | ⟨c, cs⟩ <;> rfl
    rw [e, hw]
    show fs.walk l [[]] = _
    simp [FS.walk, hd]

theorem ensureDir_resolved {fs : FS} {p : Str} {loc : Loc} (hs : '/' ∈ p)
    (h : fs.resolve p = .ok loc) : fs.ensureDir p = (fs, none) := by
  unfold FS.ensureDir
  rw [if_pos (dirname_exists hs h)]

end Bf2
