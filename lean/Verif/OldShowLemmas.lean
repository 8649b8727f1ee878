import Verif.OldShow
import Verif.OldShowSpec
import Verif.TextLemmas

/-! # Lemmas about texts of bytes -/

namespace Bf2

theorem hexDigit_value : ∀ n : Fin 16, hexValue (hexDigit n.val) = some n.val := by decide

theorem char_byte (b : UInt8) : (Char.ofNat b.toNat).toNat = b.toNat := by
  have : ∀ n : Fin 256, (Char.ofNat n.val).toNat = n.val := by decide +kernel
  exact this ⟨b.toNat, b.toNat_lt⟩

theorem ofNat_byte (b : UInt8) : UInt8.ofNat b.toNat = b := by simp

theorem readBody_esc {q d : Char} {x : UInt8} (hx : d ≠ 'x') (h : escapeValue d = some x) (s : Str) :
    readBody q ('\\' :: d :: s) = (readBody q s).map (x :: ·) := by
  rw [readBody.eq_def]
  simp only [if_true]
  rw [if_neg hx, h]
  cases readBody q s <;> rfl

theorem readBody_hex {q a b : Char} {x y : Nat} (ha : hexValue a = some x) (hb : hexValue b = some y)
    (s : Str) :
    readBody q ('\\' :: 'x' :: a :: b :: s) = (readBody q s).map (UInt8.ofNat (16 * x + y) :: ·) := by
  rw [readBody.eq_def]
  simp only [if_true]
  rw [ha, hb]
  cases readBody q s <;> rfl

theorem readBody_plain {q c : Char} (h1 : c ≠ '\\') (h2 : ¬ (c = q ∨ c.toNat < 32 ∨ 127 ≤ c.toNat))
    (s : Str) : readBody q (c :: s) = (readBody q s).map (UInt8.ofNat c.toNat :: ·) := by
  rw [readBody.eq_def]
  simp only
  rw [if_neg h1, if_neg h2]
  cases readBody q s <;> rfl

theorem readBody_escape (q : Char) (hq : q = '\'' ∨ q = '"') (b : UInt8) (s : Str) :
    readBody q (escapeByte q b ++ s) = (readBody q s).map (b :: ·) := by
  have hc := char_byte b
  unfold escapeByte
  simp only
  split
  · next h =>
    have hx : Char.ofNat b.toNat ≠ 'x' := by
      rcases h with h | h
      · rw [h]; rcases hq with rfl | rfl <;> decide
      · rw [h]; decide
    have he : escapeValue (Char.ofNat b.toNat) = some b := by
      have e : escapeValue (Char.ofNat b.toNat) = some (UInt8.ofNat (Char.ofNat b.toNat).toNat) := by
        rcases h with h | h
        · rw [h]; rcases hq with rfl | rfl <;> decide
        · rw [h]; decide
      rw [e, hc, ofNat_byte]
    exact readBody_esc hx he s
  split
  · next h =>
    have e : b = 9 := by rw [h] at hc; exact UInt8.toNat_inj.1 hc.symm
    subst e
    exact readBody_esc (by decide) rfl s
  split
  · next h =>
    have e : b = 10 := by rw [h] at hc; exact UInt8.toNat_inj.1 hc.symm
    subst e
    exact readBody_esc (by decide) rfl s
  split
  · next h =>
    have e : b = 13 := by rw [h] at hc; exact UInt8.toNat_inj.1 hc.symm
    subst e
    exact readBody_esc (by decide) rfl s
  split
  · have hlt := b.toNat_lt
    have h1 := hexDigit_value ⟨b.toNat / 16, by omega⟩
    have h2 := hexDigit_value ⟨b.toNat % 16, by omega⟩
    have e : 16 * (b.toNat / 16) + b.toNat % 16 = b.toNat := Nat.div_add_mod _ _
    refine (readBody_hex h1 h2 s).trans ?_
    simp only [e, ofNat_byte]
  · next h1 _ _ _ h2 =>
    rw [not_or] at h1
    refine (readBody_plain h1.2 (by rw [hc]; rintro (h | h); exact h1.1 h; exact h2 h) s).trans ?_
    rw [hc, ofNat_byte]

theorem readBody_all (q : Char) (hq : q = '\'' ∨ q = '"') (b : Bytes) :
    readBody q (b.flatMap (escapeByte q)) = some b := by
  induction b with
  | nil => rfl
  | cons x xs ih => rw [List.flatMap_cons, readBody_escape q hq, ih]; rfl

theorem bytesText_writes (b : Bytes) : WritesBytes (bytesText b) b := by
  unfold bytesText
  simp only
  split
  · exact ⟨'"', by simp, _, rfl, readBody_all _ (.inr rfl) b⟩
  · exact ⟨'\'', by simp, _, rfl, readBody_all _ (.inl rfl) b⟩

theorem WritesBytes.inj {s : Str} {a b : Bytes} (h : WritesBytes s a) (k : WritesBytes s b) : a = b := by
  obtain ⟨q, -, body, rfl, h⟩ := h
  obtain ⟨q', -, body', e, k⟩ := k
  obtain ⟨-, e⟩ := List.cons.inj e
  obtain ⟨rfl, e⟩ := List.cons.inj e
  obtain ⟨rfl, -⟩ := List.append_inj' e rfl
  rw [h] at k
  exact Option.some.inj k

theorem optText_writes (n : Option Int) : WritesOpt (optText n) n := by
  cases n with
  | none => exact .inl ⟨rfl, rfl⟩
  | some k => exact .inr ⟨k, rfl, intText_writes k⟩

theorem WritesOpt.inj {s : Str} {a b : Option Int} (h : WritesOpt s a) (k : WritesOpt s b) : a = b := by
  have no : ∀ n, ¬ WritesInt "None".toList n := by
    intro n hn
    rcases hn.chars (c := 'N') (by decide) with h | h
    · exact absurd h (by decide)
    · exact absurd h (by decide)
  rcases h with ⟨rfl, rfl⟩ | ⟨x, rfl, hx⟩ <;> rcases k with ⟨rfl, e⟩ | ⟨y, rfl, hy⟩
  · rfl
  · exact absurd hy (no _)
  · subst e; exact absurd hx (no _)
  · rw [hx.inj hy]

theorem mapTexts_writes (i : Nat) (l : List Bytes) : WritesMaps i (mapTexts i l) l := by
  induction l generalizing i with
  | nil => exact trivial
  | cons b bs ih => exact ⟨⟨_, _, rfl, intText_writes _, bytesText_writes _⟩, ih _⟩

theorem WritesMaps.length {i : Nat} {ss : List Str} {l : List Bytes} (h : WritesMaps i ss l) :
    ss.length = l.length := by
  induction ss generalizing i l with
  | nil =>
    cases l with
    | nil => rfl
    | cons _ _ => exact h.elim
  | cons s ss ih =>
    cases l with
    | nil => exact h.elim
    | cons b bs => simp [ih h.2]

/-- Where the first `]` is. -/
theorem bracket_split {a b x y : Str} (ha : ']' ∉ a) (hb : ']' ∉ b) (h : a ++ ']' :: x = b ++ ']' :: y) :
    a = b ∧ x = y := by
  induction a generalizing b with
  | nil =>
    cases b with
    | nil => exact ⟨rfl, (List.cons.inj h).2⟩
    | cons c cs => exact absurd (List.cons.inj h).1 (fun e => hb (by simp [← e]))
  | cons c cs ih =>
    cases b with
    | nil => exact absurd (List.cons.inj h).1 (fun e => ha (by simp [e]))
    | cons d ds =>
      obtain ⟨rfl, h'⟩ := List.cons.inj h
      obtain ⟨rfl, h2⟩ := ih (fun k => ha (by simp [k])) (fun k => hb (by simp [k])) h'
      exact ⟨rfl, h2⟩

theorem writesInt_bracket {s : Str} {n : Int} (h : WritesInt s n) : ']' ∉ s := by
  intro hc
  rcases h.chars hc with h | h
  · exact absurd h (by decide)
  · exact absurd h (by decide)

theorem WritesMaps.inj {i : Nat} {ss : List Str} {l l' : List Bytes} (h : WritesMaps i ss l)
    (k : WritesMaps i ss l') : l = l' := by
  induction ss generalizing i l l' with
  | nil =>
    cases l with
    | nil =>
      cases l' with
      | nil => rfl
      | cons _ _ => exact k.elim
    | cons _ _ => exact h.elim
  | cons s ss ih =>
    cases l with
    | nil => exact h.elim
    | cons b bs =>
      cases l' with
      | nil => exact k.elim
      | cons b' bs' =>
        obtain ⟨⟨n, v, e, hn, hv⟩, h⟩ := h
        obtain ⟨⟨n', v', e', hn', hv'⟩, k⟩ := k
        rw [e] at e'
        simp only [List.append_assoc, List.append_cancel_left_eq] at e'
        obtain ⟨-, e2⟩ := bracket_split (x := " = ".toList ++ v) (y := " = ".toList ++ v')
          (writesInt_bracket hn) (writesInt_bracket hn') e'
        rw [List.append_cancel_left_eq] at e2
        subst e2
        rw [hv.inj hv', ih h k]

end Bf2
