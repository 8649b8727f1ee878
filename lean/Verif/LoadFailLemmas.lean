import Verif.FormatLemmas

/-! Lemmas for C141: which errors the readers raise. -/

namespace Bf2

/-- All that `p` raises is `struct.error`. -/
def OnlyStruct {α : Type} (p : P α) : Prop := ∀ s e, p s = .error e → e = .structError

namespace OnlyStruct
variable {α β : Type} {F : Type} [FCodec F]

theorem pure (a : α) : OnlyStruct (pure a : P α) := fun _ _ h => by cases h

theorem bind {p : P α} {f : α → P β} (hp : OnlyStruct p) (hf : ∀ a, OnlyStruct (f a)) :
    OnlyStruct (p >>= f) := by
  intro s e h
  rw [P.bind_run] at h
  rcases hs : p s with e' | ⟨a, r⟩
  · rw [hs] at h
    cases h
    exact hp s _ hs
  · rw [hs] at h
    exact hf a r e h

theorem rep {p : P α} (hp : OnlyStruct p) (n : Nat) : OnlyStruct (P.rep p n) := by
  induction n with
  | zero => exact pure _
  | succ n ih => exact bind hp fun _ => bind ih fun _ => pure _

theorem each {f : α → P β} (hf : ∀ a, OnlyStruct (f a)) (l : List α) : OnlyStruct (P.each f l) := by
  induction l with
  | nil => exact pure _
  | cons a as ih => exact bind (hf a) fun _ => bind ih fun _ => pure _

theorem readBytes (n : Nat) : OnlyStruct (readBytes n) := by
  intro s e h
  unfold Bf2.readBytes at h
  split at h <;> cases h
  rfl

theorem readLong (pl : Plat) : OnlyStruct (readLong pl) := bind (readBytes _) fun _ => pure _
theorem readShort1 (pl : Plat) : OnlyStruct (readShort1 pl) := bind (readBytes _) fun _ => pure _
theorem readByte : OnlyStruct readByte := bind (readBytes _) fun _ => pure _

theorem raise : OnlyStruct (P.raise .structError : P α) := fun _ _ h => by cases h; rfl

theorem ite {c : Prop} [Decidable c] {p q : P α} (hp : OnlyStruct p) (hq : OnlyStruct q) :
    OnlyStruct (if c then p else q) := by split <;> assumption

theorem readCount {p : P α} (hp : OnlyStruct p) (n : Int) : OnlyStruct (readCount p n) :=
  ite raise (ite (bind hp fun _ => pure _) (bind (rep hp _) fun _ => pure _))

theorem readString (pl : Plat) : OnlyStruct (readString pl) :=
  bind (readLong pl) fun _ => ite raise (readBytes _)

theorem readFloat1 (pl : Plat) : OnlyStruct (readFloat1 (F := F) pl) :=
  bind (readBytes _) fun _ => pure _

theorem readFloat3 (pl : Plat) : OnlyStruct (readFloat3 (F := F) pl) :=
  bind (readFloat1 pl) fun _ => bind (readFloat1 pl) fun _ => bind (readFloat1 pl) fun _ => pure _

theorem readFloat4 (pl : Plat) : OnlyStruct (readFloat4 (F := F) pl) :=
  bind (readFloat1 pl) fun _ => bind (readFloat1 pl) fun _ => bind (readFloat1 pl) fun _ =>
    bind (readFloat1 pl) fun _ => pure _

theorem readMatrix4 (pl : Plat) : OnlyStruct (readMatrix4 (F := F) pl) :=
  bind (readFloat4 pl) fun _ => bind (readFloat4 pl) fun _ => bind (readFloat4 pl) fun _ =>
    bind (readFloat4 pl) fun _ => pure _

theorem loadHead (pl : Plat) : OnlyStruct (loadHead pl) :=
  bind (readLong pl) fun _ => bind (readLong pl) fun _ => bind (readLong pl) fun _ =>
    bind (readLong pl) fun _ => bind (readLong pl) fun _ => pure _

theorem loadVAttr (pl : Plat) : OnlyStruct (loadVAttr pl) :=
  bind (readShort1 pl) fun _ => bind (readShort1 pl) fun _ => bind (readShort1 pl) fun _ =>
    bind (readShort1 pl) fun _ => pure _

theorem loadRig (pl : Plat) : OnlyStruct (loadRig (F := F) pl) :=
  bind (readLong pl) fun _ => bind (rep (bind (readLong pl) fun _ => bind (readMatrix4 pl) fun _ => pure _) _)
    fun _ => pure _

theorem loadLodNodes (pl : Plat) (v : Int) (k : Kind) : OnlyStruct (loadLodNodes (F := F) pl v k) :=
  bind (readFloat3 pl) fun _ => bind (readFloat3 pl) fun _ =>
    bind (ite (bind (readFloat3 pl) fun _ => pure _) (pure _)) fun _ =>
      ite (bind (readLong pl) fun _ => bind (rep (loadRig pl) _) fun _ => pure _)
        (bind (readLong pl) fun _ => bind (ite (pure _) (rep (readMatrix4 pl) _)) fun _ => pure _)

theorem loadMat (pl : Plat) (v : Int) (k : Kind) : OnlyStruct (loadMat (F := F) pl v k) :=
  bind (ite (pure _) (bind (readLong pl) fun _ => pure _)) fun _ => bind (readString pl) fun _ =>
    bind (readString pl) fun _ => bind (readLong pl) fun _ => bind (rep (readString pl) _) fun _ =>
    bind (readLong pl) fun _ => bind (readLong pl) fun _ => bind (readLong pl) fun _ =>
    bind (readLong pl) fun _ => bind (readLong pl) fun _ => bind (readLong pl) fun _ =>
    ite (bind (readFloat3 pl) fun _ => bind (readFloat3 pl) fun _ => pure _) (pure _)

end OnlyStruct

variable {F : Type} [FCodec F]

/-- What `loadBody` does before it reads the vertex block. -/
def loadPreamble (pl : Plat) : P Preamble := do
  let head ← loadHead pl
  let u1 ← readByte
  let geomnum ← readLong pl
  let lodnums ← P.rep (readLong pl) geomnum.toNat
  let vertattribnum ← readLong pl
  let vattrs ← P.rep (loadVAttr pl) vertattribnum.toNat
  let vertformat ← readLong pl
  let vertstride ← readLong pl
  let vertnum ← readLong pl
  pure ⟨head, u1, geomnum, lodnums, vertattribnum, vattrs, vertformat, vertstride, vertnum⟩

theorem loadBody_split (pl : Plat) (k : Kind) :
    loadBody (F := F) pl k = loadPreamble pl >>= loadRest pl k := by
  unfold loadBody loadPreamble loadRest
  simp only [bind_assoc, pure_bind]

theorem loadPreamble_struct (pl : Plat) : OnlyStruct (loadPreamble pl) :=
  .bind (.loadHead pl) fun _ => .bind .readByte fun _ => .bind (.readLong pl) fun _ =>
    .bind (.rep (.readLong pl) _) fun _ => .bind (.readLong pl) fun _ =>
    .bind (.rep (.loadVAttr pl) _) fun _ => .bind (.readLong pl) fun _ => .bind (.readLong pl) fun _ =>
    .bind (.readLong pl) fun _ => .pure _

theorem loadPreamble_sound {pl : Plat} {s r : Bytes} {p : Preamble} (h : loadPreamble pl s = .ok (p, r)) :
    ∃ bs, p.Bytes pl bs ∧ s = bs ++ r := by
  simp only [loadPreamble, loadHead, bind_assoc, pure_bind, P.bind_ok, P.pure_ok] at h
  obtain ⟨a1, s1, h1, a2, s2, h2, a3, s3, h3, a4, s4, h4, a5, s5, h5, a6, s6, h6, a7, s7, h7, a8, s8, h8,
    a9, s9, h9, a10, s10, h10, a11, s11, h11, a12, s12, h12, a13, s13, h13, rfl, rfl⟩ := h
  obtain ⟨-, b1, w1, rfl⟩ := (readLong_inv pl).sound h1
  obtain ⟨-, b2, w2, rfl⟩ := (readLong_inv pl).sound h2
  obtain ⟨-, b3, w3, rfl⟩ := (readLong_inv pl).sound h3
  obtain ⟨-, b4, w4, rfl⟩ := (readLong_inv pl).sound h4
  obtain ⟨-, b5, w5, rfl⟩ := (readLong_inv pl).sound h5
  obtain ⟨-, b6, w6, rfl⟩ := readByte_inv.sound h6
  obtain ⟨-, b7, w7, rfl⟩ := (readLong_inv pl).sound h7
  obtain ⟨⟨n8, -⟩, b8, w8, rfl⟩ := ((readLong_inv pl).rep _).sound h8
  obtain ⟨-, b9, w9, rfl⟩ := (readLong_inv pl).sound h9
  obtain ⟨⟨n10, -⟩, b10, w10, rfl⟩ := ((loadVAttr_inv pl).rep _).sound h10
  obtain ⟨-, b11, w11, rfl⟩ := (readLong_inv pl).sound h11
  obtain ⟨-, b12, w12, rfl⟩ := (readLong_inv pl).sound h12
  obtain ⟨-, b13, w13, rfl⟩ := (readLong_inv pl).sound h13
  refine ⟨b1 ++ (b2 ++ (b3 ++ (b4 ++ (b5 ++ (b6 ++ (b7 ++ (b8 ++ (b9 ++ (b10 ++ (b11 ++ (b12 ++
    (b13 ++ [])))))))))))), ⟨n8, n10, ?_⟩, by simp only [List.append_assoc, List.append_nil]⟩
  refine (preamble_writes _ _).1 ?_
  simp only [Out.all]
  exact Out.seq_ok.2 ⟨_, _, w1, Out.seq_ok.2 ⟨_, _, w2, Out.seq_ok.2 ⟨_, _, w3, Out.seq_ok.2 ⟨_, _, w4,
    Out.seq_ok.2 ⟨_, _, w5, Out.seq_ok.2 ⟨_, _, w6, Out.seq_ok.2 ⟨_, _, w7, Out.seq_ok.2 ⟨_, _, w8,
    Out.seq_ok.2 ⟨_, _, w9, Out.seq_ok.2 ⟨_, _, w10, Out.seq_ok.2 ⟨_, _, w11, Out.seq_ok.2 ⟨_, _, w12,
    Out.seq_ok.2 ⟨_, _, w13, Out.nil_ok.2 rfl, rfl⟩, rfl⟩, rfl⟩, rfl⟩, rfl⟩, rfl⟩, rfl⟩, rfl⟩, rfl⟩,
    rfl⟩, rfl⟩, rfl⟩, rfl⟩

/-- What the vertex block raises. -/
theorem loadVertices_error {pl : Plat} {a b c : Int} {s : Bytes} {e : Err}
    (h : loadVertices (F := F) pl a b c s = .error e) :
    e = .structError ∨ (e = .zeroDivisionError ∧ b = 0) ∨
      (e = .typeError ∧ b ≠ 0 ∧ intDivMul a b c = 1 ∧ 4 ≤ s.length) := by
  unfold loadVertices dataNum at h
  by_cases hb : b = 0
  · rw [if_pos hb] at h
    cases h
    exact .inr (.inl ⟨rfl, hb⟩)
  rw [if_neg hb] at h
  simp only [P.bind_run] at h
  rcases hr : readFloat (F := F) pl (intDivMul a b c) s with e' | ⟨x, r⟩
  · rw [hr] at h
    cases h
    exact .inl (OnlyStruct.readCount (.readFloat1 pl) _ _ _ hr)
  · rw [hr] at h
    rcases x with x | l
    · cases h
      refine .inr (.inr ⟨rfl, hb, ?_⟩)
      unfold readFloat readCount at hr
      split at hr
      · cases hr
      · split at hr
        · next h1 =>
          refine ⟨h1, ?_⟩
          by_contra h4
          rw [P.bind_run] at hr
          simp only [readFloat1, P.bind_run, readBytes, if_neg h4] at hr
          cases hr
        · rw [P.bind_run] at hr
          split at hr <;> cases hr
    · cases h

theorem loadRest_error {pl : Plat} {k : Kind} {p : Preamble} {s : Bytes} {e : Err}
    (h : loadRest (F := F) pl k p s = .error e) :
    e = .structError ∨ (e = .zeroDivisionError ∧ p.vertformat = 0) ∨
      (e = .typeError ∧ p.vertformat ≠ 0 ∧ intDivMul p.vertstride p.vertformat p.vertnum = 1 ∧
        4 ≤ s.length) := by
  unfold loadRest at h
  rw [P.bind_run] at h
  rcases hv : loadVertices (F := F) pl p.vertstride p.vertformat p.vertnum s with e' | ⟨x, r⟩
  · rw [hv] at h
    cases h
    exact loadVertices_error hv
  · rw [hv] at h
    refine .inl (OnlyStruct.bind (.readLong pl) (fun _ => .bind (.readCount (.readShort1 pl) _) fun _ =>
      .bind (.ite (.pure _) (.readLong pl)) fun _ => .bind (.each (fun n => ?_) _) fun _ =>
      .bind (.each (fun g => ?_) _) fun _ => .pure _) r e h)
    · exact .bind (.rep (.loadLodNodes pl _ k) _) fun _ => .pure _
    · exact .bind (.each (fun _ => .bind (.readLong pl) fun _ => .bind (.rep (.loadMat pl _ k) _) fun _ =>
        .pure _) _) fun _ => .pure _

theorem loadBody_error {pl : Plat} {k : Kind} {file : Bytes} {e : Err}
    (h : loadBody (F := F) pl k file = .error e) :
    e = .structError ∨ ∃ (p : Preamble) (bs rest : Bytes), p.Bytes pl bs ∧ file = bs ++ rest ∧
      ((e = .zeroDivisionError ∧ p.vertformat = 0) ∨
      (e = .typeError ∧ p.vertformat ≠ 0 ∧ intDivMul p.vertstride p.vertformat p.vertnum = 1 ∧
        4 ≤ rest.length)) := by
  rw [loadBody_split, P.bind_run] at h
  rcases hp : loadPreamble pl file with e' | ⟨p, r⟩
  · rw [hp] at h
    cases h
    exact .inl (loadPreamble_struct pl _ _ hp)
  · rw [hp] at h
    obtain ⟨bs, hb, rfl⟩ := loadPreamble_sound hp
    rcases loadRest_error h with h' | h'
    · exact .inl h'
    · exact .inr ⟨p, bs, r, hb, rfl, h'⟩

end Bf2
