import Verif.Codec
import Mathlib.Tactic.NormNum

/-! # Inversion lemmas for the readers and writers of `Codec.lean` -/

namespace Bf2

namespace Out

@[simp] theorem nil_bytes : nil.bytes = [] := rfl
@[simp] theorem nil_err : nil.err = none := rfl
@[simp] theorem write_bytes (bs : Bytes) : (write bs).bytes = bs := rfl
@[simp] theorem write_err (bs : Bytes) : (write bs).err = none := rfl
@[simp] theorem raise_bytes (e : Err) : (raise e).bytes = [] := rfl
@[simp] theorem raise_err (e : Err) : (raise e).err = some e := rfl

theorem ext' {a b : Out} (h1 : a.bytes = b.bytes) (h2 : a.err = b.err) : a = b := by
  cases a; cases b; simp_all

@[simp] theorem nil_seq (a : Out) : nil.seq a = a := by simp [nil, seq]
@[simp] theorem seq_nil (a : Out) : a.seq nil = a := by
  cases a with | mk bs e => cases e <;> simp [nil, seq]

theorem seq_assoc (a b c : Out) : (a.seq b).seq c = a.seq (b.seq c) := by
  cases a with | mk bs e =>
  cases b with | mk bs' e' =>
  cases e <;> cases e' <;> simp [seq]

@[simp] theorem mk_none_seq (bs : Bytes) (b : Out) :
    (Out.mk bs none).seq b = ⟨bs ++ b.bytes, b.err⟩ := rfl
@[simp] theorem mk_some_seq (bs : Bytes) (e : Err) (b : Out) :
    (Out.mk bs (some e)).seq b = ⟨bs, some e⟩ := rfl

/-- A sequence succeeds iff both parts do. -/
theorem seq_ok {a b : Out} {bs : Bytes} :
    a.seq b = ⟨bs, none⟩ ↔ ∃ b1 b2, a = ⟨b1, none⟩ ∧ b = ⟨b2, none⟩ ∧ bs = b1 ++ b2 := by
  cases a with | mk x e =>
  cases b with | mk y e' =>
  cases e with
  | some e => simp
  | none =>
    simp only [mk_none_seq, Out.mk.injEq]
    constructor
    · rintro ⟨h, rfl⟩; exact ⟨x, y, ⟨rfl, trivial⟩, ⟨rfl, rfl⟩, h.symm⟩
    · rintro ⟨b1, b2, ⟨rfl, _⟩, ⟨rfl, rfl⟩, rfl⟩; exact ⟨rfl, rfl⟩

theorem nil_ok {bs : Bytes} : nil = ⟨bs, none⟩ ↔ bs = [] := by
  simp [nil, eq_comm]

theorem write_ok {a bs : Bytes} : write a = ⟨bs, none⟩ ↔ bs = a := by
  simp [write, eq_comm]

theorem raise_ok {e : Err} {bs : Bytes} : ¬ raise e = ⟨bs, none⟩ := by
  simp [raise]

end Out

/-- The reader `p` inverts the writer `w` on the values satisfying `V`, exactly: whatever `p` reads
satisfies `V` and is what `w` would have written, and whatever `w` writes for a value in `V` is read
back by `p` leaving the rest untouched. -/
structure Inverts {α : Type} (p : P α) (w : α → Out) (V : α → Prop) : Prop where
  sound : ∀ {s a r}, p s = .ok (a, r) → V a ∧ ∃ bs, w a = ⟨bs, none⟩ ∧ s = bs ++ r
  complete : ∀ {a bs} (r), V a → w a = ⟨bs, none⟩ → p (bs ++ r) = .ok (a, r)

/-! ## Integers as bytes -/

@[simp] theorem encLE_length (k n : Nat) : (encLE k n).length = k := by
  induction k generalizing n with
  | zero => rfl
  | succ k ih => simp [encLE, ih]

theorem decLE_lt (bs : Bytes) : decLE bs < 256 ^ bs.length := by
  induction bs with
  | nil => simp [decLE]
  | cons b bs ih =>
    have := b.toNat_lt
    simp only [decLE, List.length_cons, Nat.pow_succ]
    omega

theorem decLE_encLE (k n : Nat) (h : n < 256 ^ k) : decLE (encLE k n) = n := by
  induction k generalizing n with
  | zero => simp [encLE, decLE]; omega
  | succ k ih =>
    rw [Nat.pow_succ] at h
    simp only [encLE, decLE]
    rw [ih (n / 256) (by omega)]
    have : (UInt8.ofNat (n % 256)).toNat = n % 256 := by simp
    omega

theorem encLE_decLE (bs : Bytes) : encLE bs.length (decLE bs) = bs := by
  induction bs with
  | nil => rfl
  | cons b bs ih =>
    have hb := b.toNat_lt
    simp only [List.length_cons, encLE, decLE]
    have h1 : (b.toNat + 256 * decLE bs) % 256 = b.toNat := by omega
    have h2 : (b.toNat + 256 * decLE bs) / 256 = decLE bs := by omega
    rw [h1, h2, ih]
    simp

@[simp] theorem Plat.order_length (pl : Plat) (bs : Bytes) : (pl.order bs).length = bs.length := by
  unfold Plat.order; split <;> simp

@[simp] theorem Plat.order_order (pl : Plat) (bs : Bytes) : pl.order (pl.order bs) = bs := by
  unfold Plat.order; split <;> simp

@[simp] theorem Plat.enc_length (pl : Plat) (k n : Nat) : (pl.enc k n).length = k := by
  simp [Plat.enc]

theorem Plat.dec_enc (pl : Plat) (k n : Nat) (h : n < 256 ^ k) : pl.dec (pl.enc k n) = n := by
  simp [Plat.dec, Plat.enc, decLE_encLE k n h]

theorem Plat.enc_dec (pl : Plat) {k : Nat} {bs : Bytes} (h : bs.length = k) :
    pl.enc k (pl.dec bs) = bs := by
  subst h
  have := encLE_decLE (pl.order bs)
  simp only [Plat.order_length] at this
  simp [Plat.dec, Plat.enc, this]

theorem Plat.dec_lt (pl : Plat) {k : Nat} {bs : Bytes} (h : bs.length = k) :
    pl.dec bs < 256 ^ k := by
  subst h
  have := decLE_lt (pl.order bs)
  simpa [Plat.dec] using this

theorem Plat.longSize_cases (pl : Plat) : pl.longSize = 4 ∨ pl.longSize = 8 := by
  unfold Plat.longSize; split <;> simp

theorem toSigned_fits {k n : Nat} (hk : k = 1 ∨ k = 2 ∨ k = 4 ∨ k = 8) (h : n < 256 ^ k) :
    fitsSigned k (toSigned k n) = true ∧ ofSigned k (toSigned k n) = n := by
  rcases hk with rfl | rfl | rfl | rfl <;>
  · simp only [fitsSigned, toSigned, ofSigned, Bool.and_eq_true]
    norm_num at h ⊢
    split <;> omega

theorem fits_toSigned {k : Nat} {v : Int} (hk : k = 1 ∨ k = 2 ∨ k = 4 ∨ k = 8)
    (h : fitsSigned k v = true) : ofSigned k v < 256 ^ k ∧ toSigned k (ofSigned k v) = v := by
  rcases hk with rfl | rfl | rfl | rfl <;>
  · simp only [fitsSigned, Bool.and_eq_true, decide_eq_true_eq] at h
    simp only [toSigned, ofSigned]
    norm_num at h ⊢
    refine ⟨by omega, ?_⟩
    split <;> omega

/-! ## Elementary readers -/

theorem readBytes_ok {n : Nat} {s bs r : Bytes} :
    readBytes n s = .ok (bs, r) ↔ bs.length = n ∧ s = bs ++ r := by
  unfold readBytes
  constructor
  · intro h
    split at h
    · next hn =>
      simp only [Except.ok.injEq, Prod.mk.injEq] at h
      obtain ⟨rfl, rfl⟩ := h
      exact ⟨by simp [hn], (List.take_append_drop n s).symm⟩
    · cases h
  · rintro ⟨rfl, rfl⟩
    simp

theorem readLong_inv (pl : Plat) : Inverts (readLong pl) (writeLong pl) (fun _ => True) where
  sound {s a r} h := by
    simp only [readLong, P.bind_ok, P.pure_ok, readBytes_ok] at h
    obtain ⟨bs, s', ⟨hl, rfl⟩, rfl, rfl⟩ := h
    have hk : pl.longSize = 1 ∨ pl.longSize = 2 ∨ pl.longSize = 4 ∨ pl.longSize = 8 :=
      .inr (.inr pl.longSize_cases)
    obtain ⟨h1, h2⟩ := toSigned_fits hk (pl.dec_lt hl)
    refine ⟨trivial, bs, ?_, rfl⟩
    simp [writeLong, h1, h2, pl.enc_dec hl, Out.write]
  complete {a bs} r _ h := by
    unfold writeLong at h
    split at h
    · next hf =>
      have hk : pl.longSize = 1 ∨ pl.longSize = 2 ∨ pl.longSize = 4 ∨ pl.longSize = 8 :=
      .inr (.inr pl.longSize_cases)
      obtain ⟨h1, h2⟩ := fits_toSigned hk hf
      rw [Out.write_ok] at h
      subst h
      simp only [readLong, P.bind_ok, P.pure_ok, readBytes_ok]
      exact ⟨_, _, ⟨by simp, rfl⟩, by rw [pl.dec_enc _ _ h1, h2], rfl⟩
    · exact absurd h Out.raise_ok

theorem readByte_inv : Inverts readByte writeByte (fun _ => True) where
  sound {s a r} h := by
    simp only [readByte, P.bind_ok, P.pure_ok, readBytes_ok] at h
    obtain ⟨bs, s', ⟨hl, rfl⟩, rfl, rfl⟩ := h
    have hlt : decLE bs < 256 ^ 1 := hl ▸ decLE_lt bs
    obtain ⟨h1, h2⟩ := toSigned_fits (.inl rfl) hlt
    refine ⟨trivial, bs, ?_, rfl⟩
    have := encLE_decLE bs
    rw [hl] at this
    simp [writeByte, h1, h2, this, Out.write]
  complete {a bs} r _ h := by
    unfold writeByte at h
    split at h
    · next hf =>
      obtain ⟨h1, h2⟩ := fits_toSigned (.inl rfl) hf
      rw [Out.write_ok] at h
      subst h
      simp only [readByte, P.bind_ok, P.pure_ok, readBytes_ok]
      exact ⟨_, _, ⟨by simp, rfl⟩, by rw [decLE_encLE _ _ h1, h2], rfl⟩
    · exact absurd h Out.raise_ok

theorem readShort1_inv (pl : Plat) : Inverts (readShort1 pl) (writeShort pl) (fun _ => True) where
  sound {s a r} h := by
    simp only [readShort1, P.bind_ok, P.pure_ok, readBytes_ok] at h
    obtain ⟨bs, s', ⟨hl, rfl⟩, rfl, rfl⟩ := h
    have hlt := pl.dec_lt hl
    refine ⟨trivial, bs, ?_, rfl⟩
    have : fitsShort (pl.dec bs : Int) = true := by simp [fitsShort]; omega
    simp [writeShort, this, pl.enc_dec hl, Out.write]
  complete {a bs} r _ h := by
    unfold writeShort at h
    split at h
    · next hf =>
      simp only [fitsShort, Bool.and_eq_true, decide_eq_true_eq] at hf
      rw [Out.write_ok] at h
      subst h
      simp only [readShort1, P.bind_ok, P.pure_ok, readBytes_ok]
      exact ⟨_, _, ⟨by simp, rfl⟩, by rw [pl.dec_enc _ _ (by omega)]; omega, rfl⟩
    · exact absurd h Out.raise_ok

theorem readFloat1_inv (pl : Plat) :
    Inverts (readFloat1 (F := BitVec 32) pl) (writeFloat pl) (fun _ => True) where
  sound {s a r} h := by
    simp only [readFloat1, P.bind_ok, P.pure_ok, readBytes_ok] at h
    obtain ⟨bs, s', ⟨hl, rfl⟩, rfl, rfl⟩ := h
    have hlt := pl.dec_lt hl
    refine ⟨trivial, bs, ?_, rfl⟩
    have : pl.dec bs % 2 ^ 32 = pl.dec bs := by omega
    simp only [writeFloat, floatBytes, FCodec.pack, FCodec.unpack, id, BitVec.toNat_ofNat, this,
      pl.enc_dec hl, Out.write]
  complete {a bs} r _ h := by
    rw [writeFloat, Out.write_ok] at h
    subst h
    simp only [readFloat1, P.bind_ok, P.pure_ok, readBytes_ok]
    refine ⟨_, _, ⟨by simp [floatBytes], rfl⟩, ?_, rfl⟩
    rw [floatBytes, pl.dec_enc _ _ (by have := a.isLt; simp only [FCodec.pack, id]; omega)]
    simp [FCodec.pack, FCodec.unpack]

/-! ## Combinators -/

theorem Inverts.rep {α : Type} {p : P α} {w : α → Out} {V : α → Prop} (h : Inverts p w V)
    (n : Nat) : Inverts (P.rep p n) (Out.each w) (fun l => l.length = n ∧ ∀ a ∈ l, V a) where
  sound := by
    induction n with
    | zero =>
      intro s a r hs
      simp only [P.rep, P.pure_ok] at hs
      obtain ⟨rfl, rfl⟩ := hs
      exact ⟨⟨rfl, by simp⟩, [], rfl, rfl⟩
    | succ n ih =>
      intro s l r hs
      simp only [P.rep, P.bind_ok, P.pure_ok] at hs
      obtain ⟨a, s1, h1, l', s2, h2, rfl, rfl⟩ := hs
      obtain ⟨hv, b1, hw1, rfl⟩ := h.sound h1
      obtain ⟨⟨hl, hvs⟩, b2, hw2, rfl⟩ := ih h2
      exact ⟨⟨by simp [hl], by simpa using ⟨hv, hvs⟩⟩, b1 ++ b2,
        by simp [Out.each, hw1, hw2], by simp⟩
  complete := by
    induction n with
    | zero =>
      intro l bs r hv hw
      obtain rfl : l = [] := List.eq_nil_of_length_eq_zero hv.1
      rw [Out.each, Out.nil_ok] at hw
      subst hw; rfl
    | succ n ih =>
      intro l bs r hv hw
      obtain ⟨hl, hv⟩ := hv
      match l, hl with
      | a :: l, hl =>
        simp only [Out.each, Out.seq_ok] at hw
        obtain ⟨b1, b2, h1, h2, rfl⟩ := hw
        simp only [P.rep, P.bind_ok, P.pure_ok]
        exact ⟨a, b2 ++ r, by simpa using h.complete (b2 ++ r) (hv a (by simp)) h1, l, r,
          ih r ⟨by simpa using hl, fun x hx => hv x (by simp [hx])⟩ h2, rfl, rfl⟩

theorem Inverts.congr {α : Type} {p : P α} {w w' : α → Out} {V V' : α → Prop} (h : Inverts p w V)
    (hw : ∀ a, V a → w a = w' a) (hV : ∀ a, V a ↔ V' a) : Inverts p w' V' where
  sound hs := by
    obtain ⟨h1, b, h2, h3⟩ := h.sound hs
    exact ⟨(hV _).1 h1, b, by rw [← hw _ h1]; exact h2, h3⟩
  complete r hv hw' := h.complete r ((hV _).2 hv) (by rw [hw _ ((hV _).2 hv)]; exact hw')

theorem readString_inv (pl : Plat) : Inverts (readString pl) (writeString pl) (fun _ => True) where
  sound {s a r} h := by
    simp only [readString, P.bind_ok] at h
    obtain ⟨n, s1, h1, h2⟩ := h
    obtain ⟨_, b1, hw, rfl⟩ := (readLong_inv pl).sound h1
    split at h2
    · cases h2
    · next hn =>
      rw [readBytes_ok] at h2
      obtain ⟨hl, rfl⟩ := h2
      refine ⟨trivial, b1 ++ a, ?_, by simp⟩
      have : (a.length : Int) = n := by omega
      simp [writeString, Out.all, this, hw, Out.write, Out.nil]
  complete {a bs} r _ h := by
    simp only [writeString, Out.all, Out.seq_ok, Out.write_ok, Out.nil_ok] at h
    obtain ⟨b1, b2, h1, ⟨b3, b4, rfl, rfl, rfl⟩, rfl⟩ := h
    simp only [readString, P.bind_ok]
    refine ⟨_, b3 ++ r, by simpa using (readLong_inv pl).complete (b3 ++ r) trivial h1, ?_⟩
    rw [if_neg (by omega), readBytes_ok]
    simp

theorem readFloat3_inv (pl : Plat) :
    Inverts (readFloat3 (F := BitVec 32) pl) (writeFloat3 pl) (fun _ => True) where
  sound {s a r} h := by
    simp only [readFloat3, P.bind_ok, P.pure_ok] at h
    obtain ⟨x, s1, h1, y, s2, h2, z, s3, h3, rfl, rfl⟩ := h
    obtain ⟨_, b1, hw1, rfl⟩ := (readFloat1_inv pl).sound h1
    obtain ⟨_, b2, hw2, rfl⟩ := (readFloat1_inv pl).sound h2
    obtain ⟨_, b3, hw3, rfl⟩ := (readFloat1_inv pl).sound h3
    simp only [writeFloat, Out.write_ok] at hw1 hw2 hw3
    subst hw1 hw2 hw3
    exact ⟨trivial, _, rfl, by simp⟩
  complete {a bs} r _ h := by
    rw [writeFloat3, Out.write_ok] at h
    subst h
    simp only [readFloat3, P.bind_ok, P.pure_ok, List.append_assoc]
    exact ⟨_, _, (readFloat1_inv pl).complete _ trivial rfl, _, _,
      (readFloat1_inv pl).complete _ trivial rfl, _, _,
      (readFloat1_inv pl).complete _ trivial rfl, rfl, rfl⟩

theorem readFloat4_inv (pl : Plat) :
    Inverts (readFloat4 (F := BitVec 32) pl) (writeFloat4 pl) (fun _ => True) where
  sound {s a r} h := by
    simp only [readFloat4, P.bind_ok, P.pure_ok] at h
    obtain ⟨x, s1, h1, y, s2, h2, z, s3, h3, w, s4, h4, rfl, rfl⟩ := h
    obtain ⟨_, b1, hw1, rfl⟩ := (readFloat1_inv pl).sound h1
    obtain ⟨_, b2, hw2, rfl⟩ := (readFloat1_inv pl).sound h2
    obtain ⟨_, b3, hw3, rfl⟩ := (readFloat1_inv pl).sound h3
    obtain ⟨_, b4, hw4, rfl⟩ := (readFloat1_inv pl).sound h4
    simp only [writeFloat, Out.write_ok] at hw1 hw2 hw3 hw4
    subst hw1 hw2 hw3 hw4
    exact ⟨trivial, _, rfl, by simp⟩
  complete {a bs} r _ h := by
    rw [writeFloat4, Out.write_ok] at h
    subst h
    simp only [readFloat4, P.bind_ok, P.pure_ok, List.append_assoc]
    exact ⟨_, _, (readFloat1_inv pl).complete _ trivial rfl, _, _,
      (readFloat1_inv pl).complete _ trivial rfl, _, _,
      (readFloat1_inv pl).complete _ trivial rfl, _, _,
      (readFloat1_inv pl).complete _ trivial rfl, rfl, rfl⟩

theorem readMatrix4_inv (pl : Plat) :
    Inverts (readMatrix4 (F := BitVec 32) pl) (writeMatrix4 pl) (fun _ => True) where
  sound {s a r} h := by
    simp only [readMatrix4, P.bind_ok, P.pure_ok] at h
    obtain ⟨x, s1, h1, y, s2, h2, z, s3, h3, w, s4, h4, rfl, rfl⟩ := h
    obtain ⟨_, b1, hw1, rfl⟩ := (readFloat4_inv pl).sound h1
    obtain ⟨_, b2, hw2, rfl⟩ := (readFloat4_inv pl).sound h2
    obtain ⟨_, b3, hw3, rfl⟩ := (readFloat4_inv pl).sound h3
    obtain ⟨_, b4, hw4, rfl⟩ := (readFloat4_inv pl).sound h4
    refine ⟨trivial, b1 ++ b2 ++ b3 ++ b4, ?_, by simp⟩
    simp [writeMatrix4, Out.all, hw1, hw2, hw3, hw4, Out.nil]
  complete {a bs} r _ h := by
    simp only [writeMatrix4, Out.all, Out.seq_ok, Out.nil_ok] at h
    obtain ⟨b1, _, h1, ⟨b2, _, h2, ⟨b3, _, h3, ⟨b4, _, h4, rfl, rfl⟩, rfl⟩, rfl⟩, rfl⟩ := h
    simp only [readMatrix4, P.bind_ok, P.pure_ok, List.append_assoc]
    exact ⟨_, _, (readFloat4_inv pl).complete _ trivial h1, _, _,
      (readFloat4_inv pl).complete _ trivial h2, _, _,
      (readFloat4_inv pl).complete _ trivial h3, _, _,
      (readFloat4_inv pl).complete _ trivial h4, rfl, rfl⟩

end Bf2
