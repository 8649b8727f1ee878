import Verif.ColFailSpec
import Verif.ColLemmas
import Verif.CutLemmas
import Verif.LoadFailLemmas
import Verif.Object

/-! # Where reading a collision mesh fails -/

namespace Bf2

variable {pl : Plat}

/-- If a repetition raises, one of the readings does, after complete contents. -/
theorem rep_error {α X : Type} {p : P α} {i : X → List Item} {V : X → Prop} {e : X → α}
    (h : Parses pl p i V e) {er : Err} {n : Nat} {s : Bytes} (hs : P.rep p n s = .error er) :
    ∃ (l : List X) (s' : Bytes), l.length < n ∧ (∀ x ∈ l, V x) ∧ (∀ t ∈ l.flatMap i, t.Fits pl) ∧
      s = layout pl (l.flatMap i) ++ s' ∧ p s' = .error er := by
  induction n generalizing s with
  | zero => cases hs
  | succ n ih =>
    simp only [P.rep, P.bind_run] at hs
    rcases hp : p s with e' | ⟨a, r⟩
    · rw [hp] at hs
      cases hs
      exact ⟨[], s, by simp, by simp, by simp, by simp [layout_nil], hp⟩
    · rw [hp] at hs
      obtain ⟨x, hV, hf, rfl, rfl⟩ := (h _ _ _).1 hp
      rcases hr : P.rep p n r with e' | ⟨l, r'⟩
      · simp only [hr] at hs
        cases hs
        obtain ⟨l, s', h1, h2, h3, rfl, h4⟩ := ih hr
        refine ⟨x :: l, s', by simpa using h1, ?_, ?_, ?_, h4⟩
        · exact List.forall_mem_cons.2 ⟨hV, h2⟩
        · rw [List.flatMap_cons]
          exact List.forall_mem_append.2 ⟨hf, h3⟩
        · rw [List.flatMap_cons, layout_append, List.append_assoc]
      · simp only [hr] at hs
        cases hs

section
variable {F : Type} [FCodec F]

theorem readSShort_struct : OnlyStruct (readSShort pl) := .bind (.readBytes _) fun _ => .pure _

theorem readCounted_struct {α : Type} {p : P α} (h : OnlyStruct p) : OnlyStruct (readCounted pl p) :=
  .bind (.readLong pl) fun _ => .bind (.rep h _) fun _ => .pure _

/-- A lod raises `struct.error`, or `ValueError` for its type. -/
theorem readLod_error {v : Int} {s : Bytes} {e : Err} (h : readLod (F := F) pl v s = .error e) :
    e = .structError ∨ (e = .valueError ∧ 9 ≤ v ∧ ∃ t r, ¬ (0 ≤ t ∧ t ≤ 4) ∧ IsLong pl t ∧
      s = layout pl [.long t] ++ r) := by
  unfold readLod at h
  rw [P.bind_run] at h
  rcases ht : readLodType pl v s with e' | ⟨t, r⟩
  · rw [ht] at h
    cases h
    unfold readLodType at ht
    split at ht
    · next hv =>
      unfold readColtype at ht
      rw [P.bind_run] at ht
      rcases hl : readLong pl s with e' | ⟨t, r⟩
      · rw [hl] at ht
        cases ht
        exact .inl (OnlyStruct.readLong pl _ _ hl)
      · rw [hl] at ht
        obtain ⟨t', -, hf, rfl, rfl⟩ := (readLong_parses _ _ _).1 hl
        dsimp only at ht
        split at ht
        · cases ht
        · next hn =>
          cases ht
          exact .inr ⟨rfl, hv, t, r, hn, hf (.long t) (List.mem_singleton.2 rfl), rfl⟩
    · cases ht
  · rw [ht] at h
    have hy : OnlyStruct (readY (F := F) pl) :=
      .bind (.readFloat1 pl) fun _ => .bind readSShort_struct fun _ => .bind readSShort_struct fun _ =>
        .bind (.readLong pl) fun _ => .bind (.readLong pl) fun _ => .pure _
    have hface : OnlyStruct (readFace pl) :=
      .bind readSShort_struct fun _ => .bind readSShort_struct fun _ => .bind readSShort_struct fun _ =>
        .bind readSShort_struct fun _ => .pure _
    have hv : OnlyStruct (readVertices (F := F) pl) :=
      .bind (.readLong pl) fun _ => .bind (.rep (.readFloat3 pl) _) fun _ =>
        .bind (.rep readSShort_struct _) fun _ => .pure _
    have hb : OnlyStruct (readBounds (F := F) pl) :=
      .bind (.readFloat3 pl) fun _ => .bind (.readFloat3 pl) fun _ => .bind .readByte fun _ =>
        .bind (.readFloat3 pl) fun _ => .bind (.readFloat3 pl) fun _ => .pure _
    have ha : OnlyStruct (readAdata pl v) := .ite (readCounted_struct (.readLong pl)) (.pure _)
    exact .inl (OnlyStruct.bind (readCounted_struct hface) (fun _ => .bind hv fun _ => .bind hb fun _ =>
      .bind (readCounted_struct hy) fun _ => .bind (readCounted_struct readSShort_struct) fun _ =>
      .bind ha fun _ => .pure _) _ _ h)

/-- A count, read, before a repetition that raises. -/
theorem counted_error {α β : Type} {p : P α} {f : Int → List α → β} {s : Bytes} {e : Err}
    (h : (do let n ← readLong pl; let l ← P.rep p n.toNat; pure (f n l) : P β) s = .error e) :
    e = .structError ∨ ∃ n r, IsLong pl n ∧ s = layout pl [.long n] ++ r ∧ P.rep p n.toNat r = .error e := by
  simp only [P.bind_run] at h
  rcases hl : readLong pl s with e' | ⟨n, r⟩
  · rw [hl] at h
    cases h
    exact .inl (OnlyStruct.readLong pl _ _ hl)
  · rw [hl] at h
    obtain ⟨n', -, hf, rfl, rfl⟩ := (readLong_parses _ _ _).1 hl
    dsimp only at h
    rcases hr : P.rep p n.toNat r with e' | ⟨l, r'⟩
    · rw [hr] at h
      cases h
      exact .inr ⟨n, r, hf (.long n) (List.mem_singleton.2 rfl), rfl, hr⟩
    · rw [hr] at h
      cases h

theorem readCol_error {s : Bytes} {e : Err} (h : readCol (F := F64) pl s = .error e) :
    e = .structError ∨ (e = .valueError ∧ BadColtype pl s) := by
  unfold readCol at h
  rw [P.bind_run] at h
  rcases h1 : readLong pl s with e' | ⟨u1, r1⟩
  · rw [h1] at h
    cases h
    exact .inl (OnlyStruct.readLong pl _ _ h1)
  rw [h1] at h
  obtain ⟨u1, -, f1, rfl, rfl⟩ := (readLong_parses _ _ _).1 h1
  dsimp only at h
  rw [P.bind_run] at h
  rcases h2 : readLong pl r1 with e' | ⟨version, r2⟩
  · rw [h2] at h
    cases h
    exact .inl (OnlyStruct.readLong pl _ _ h2)
  rw [h2] at h
  obtain ⟨version, -, f2, rfl, rfl⟩ := (readLong_parses _ _ _).1 h2
  dsimp only at h
  rcases counted_error h with h' | ⟨gn, r3, f3, rfl, h'⟩
  · exact .inl h'
  clear h
  obtain ⟨gs, r4, n1, w1, k1, rfl, h⟩ := rep_error (readGeom_parses version) h'
  clear h'
  rcases counted_error h with h' | ⟨sn, r5, f4, rfl, h'⟩
  · exact .inl h'
  clear h
  obtain ⟨ss, r6, n2, w2, k2, rfl, h⟩ := rep_error (readSub_parses version) h'
  clear h'
  rcases counted_error h with h' | ⟨ln, r7, f5, rfl, h'⟩
  · exact .inl h'
  clear h
  obtain ⟨ls, r8, n3, w3, k3, rfl, h⟩ := rep_error (readLod_parses version) h'
  rcases readLod_error h with h | ⟨he, hv, t, r, ht, f6, rfl⟩
  · exact .inl h
  refine .inr ⟨he, ⟨u1, version, gn, sn, ln, t, gs, ss, ls, _, r, hv, w1, w2, w3, by omega, by omega, by omega,
    ht, rfl, ?_, ?_⟩⟩
  · have e1 := f1 _ (List.mem_singleton.2 rfl)
    have e2 := f2 _ (List.mem_singleton.2 rfl)
    simp only [List.forall_mem_append, List.forall_mem_cons]
    exact ⟨⟨⟨⟨⟨⟨⟨e1, e2, f3, by simp⟩, k1⟩, f4, by simp⟩, k2⟩, f5, by simp⟩, k3⟩, f6, by simp⟩
  · have h7 : layout pl [.long u1, .long version, .long gn] =
        layout pl [.long u1] ++ (layout pl [.long version] ++ layout pl [.long gn]) := by
      simp [layout_cons, layout_nil]
    simp only [layout_append, h7, List.append_assoc]

end

/-- What opening a file to read it raises. -/
theorem read_error {fs : FS} {s : Str} {e : Err} (h : fs.read s = .error e) :
    e = .fileNotFoundError ∨ e = .notADirectoryError ∨ e = .isADirectoryError := by
  have walk : ∀ (cs : List Str) (l : Loc) e, fs.walk l cs = .error e →
      e = .fileNotFoundError ∨ e = .notADirectoryError := by
    intro cs
    induction cs with
    | nil => intro l e h; cases h
    | cons c cs ih =>
      intro l e h
      unfold FS.walk at h
      split at h
      · cases h; exact .inl rfl
      · cases h; exact .inr rfl
      · split at h
        · exact ih _ _ h
        · split at h
          · exact ih _ _ h
          · exact ih _ _ h
  unfold FS.read at h
  split at h
  · next e' hr =>
    cases h
    unfold FS.resolve at hr
    split at hr
    · cases hr; exact .inl rfl
    · rcases walk _ _ _ hr with h | h
      · exact .inl h
      · exact .inr (.inl h)
  · split at h
    · cases h; exact .inl rfl
    · cases h; exact .inr (.inr rfl)
    · cases h

/-! ## `struct.error` means that bytes are missing -/

/-- `p` raises `struct.error` only at the end of the file. -/
structure OnlyShort {α : Type} (p : P α) : Prop where
  stays : Stays p
  more : ∀ s, p s = .error .structError → ∃ x, p (s ++ x) ≠ .error .structError

namespace OnlyShort
variable {α β : Type}

theorem pure (a : α) : OnlyShort (pure a : P α) := ⟨.pure a, fun s h => by cases h⟩

theorem raise {e : Err} (he : e ≠ .structError) : OnlyShort (P.raise e : P α) :=
  ⟨.raise e, fun s h => by cases h; exact absurd rfl he⟩

theorem bind {p : P α} {f : α → P β} (hp : OnlyShort p) (hf : ∀ a, OnlyShort (f a)) :
    OnlyShort (p >>= f) := by
  refine ⟨.bind hp.stays fun a => (hf a).stays, fun s h => ?_⟩
  have go : ∀ s a r, p s = .ok (a, r) → ∃ x, (p >>= f) (s ++ x) ≠ .error .structError := by
    intro s a r hs
    by_cases hr : f a r = .error .structError
    · obtain ⟨x, hx⟩ := (hf a).more r hr
      refine ⟨x, ?_⟩
      rw [P.bind_run, hp.stays.ok _ _ _ hs x]
      exact hx
    · refine ⟨[], ?_⟩
      rw [List.append_nil, P.bind_run, hs]
      exact hr
  rcases hs : p s with e | ⟨a, r⟩
  · rw [P.bind_run, hs] at h
    cases h
    obtain ⟨x, hx⟩ := hp.more s hs
    rcases hs' : p (s ++ x) with e | ⟨a, r⟩
    · refine ⟨x, ?_⟩
      rw [P.bind_run, hs']
      intro h
      cases h
      exact hx hs'
    · obtain ⟨y, hy⟩ := go _ _ _ hs'
      exact ⟨x ++ y, by rwa [← List.append_assoc]⟩
  · exact go _ _ _ hs

theorem rep {p : P α} (hp : OnlyShort p) (n : Nat) : OnlyShort (P.rep p n) := by
  induction n with
  | zero => exact pure _
  | succ n ih => exact bind hp fun _ => bind ih fun _ => pure _

theorem ite {c : Prop} [Decidable c] {p q : P α} (hp : OnlyShort p) (hq : OnlyShort q) :
    OnlyShort (if c then p else q) := by split <;> assumption

theorem readBytes (n : Nat) : OnlyShort (readBytes n) := by
  refine ⟨.readBytes n, fun s _ => ⟨List.replicate n 0, ?_⟩⟩
  unfold Bf2.readBytes
  rw [if_pos (by simp)]
  exact fun h => (by cases h)

theorem readLong (pl : Plat) : OnlyShort (readLong pl) := bind (readBytes _) fun _ => pure _
theorem readSShort (pl : Plat) : OnlyShort (readSShort pl) := bind (readBytes _) fun _ => pure _
theorem readByte : OnlyShort readByte := bind (readBytes _) fun _ => pure _

variable {F : Type} [FCodec F]

theorem readFloat1 (pl : Plat) : OnlyShort (readFloat1 (F := F) pl) := bind (readBytes _) fun _ => pure _
theorem readFloat3 (pl : Plat) : OnlyShort (readFloat3 (F := F) pl) :=
  bind (readFloat1 pl) fun _ => bind (readFloat1 pl) fun _ => bind (readFloat1 pl) fun _ => pure _

theorem readCounted (pl : Plat) {p : P α} (hp : OnlyShort p) : OnlyShort (readCounted pl p) :=
  bind (readLong _) fun _ => bind (rep hp _) fun _ => pure _

theorem readLod (pl : Plat) (v : Int) : OnlyShort (readLod (F := F) pl v) :=
  bind (ite (bind (readLong _) fun _ => ite (pure _) (raise (by decide))) (pure _)) fun _ =>
  bind (readCounted pl (bind (readSShort _) fun _ => bind (readSShort _) fun _ =>
    bind (readSShort _) fun _ => bind (readSShort _) fun _ => pure _)) fun _ =>
  bind (bind (readLong _) fun _ => bind (rep (readFloat3 _) _) fun _ =>
    bind (rep (readSShort _) _) fun _ => pure _) fun _ =>
  bind (bind (readFloat3 _) fun _ => bind (readFloat3 _) fun _ => bind readByte fun _ =>
    bind (readFloat3 _) fun _ => bind (readFloat3 _) fun _ => pure _) fun _ =>
  bind (readCounted pl (bind (readFloat1 _) fun _ => bind (readSShort _) fun _ =>
    bind (readSShort _) fun _ => bind (readLong _) fun _ => bind (readLong _) fun _ => pure _))
    fun _ =>
  bind (readCounted pl (readSShort _)) fun _ =>
  bind (ite (readCounted pl (readLong _)) (pure _)) fun _ => pure _

theorem readCol (pl : Plat) : OnlyShort (readCol (F := F) pl) :=
  bind (readLong _) fun _ => bind (readLong _) fun v => bind (readLong _) fun _ =>
  bind (rep (bind (readLong _) fun _ => bind (rep (bind (readLong _) fun _ =>
    bind (rep (readLod pl v) _) fun _ => pure _) _) fun _ => pure _) _) fun _ => pure _

end OnlyShort

end Bf2
