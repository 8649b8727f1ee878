import Verif.FreeSpec
import Verif.ByteLemmas
import Verif.ColLemmas
import Verif.MapLemmas

/-! # Lemmas on free items -/

namespace Bf2

local notation "W" => BitVec 32

variable {F : Type} {pl : Plat}

/-! ## Items -/

/-- The item without its value. -/
def Item.blank : Item → Item
  | .long _ => .long 0
  | .short _ => .short 0
  | .sshort _ => .sshort 0
  | .byte _ => .byte 0
  | .word _ => .word 0
  | .text s => .text (noText s)

/-- `y` may stand in the place of `p`. -/
def Swap (p : Marked) (y : Item) : Prop := if p.1 then y.blank = p.2.blank else y = p.2

theorem Swap.self (p : Marked) : Swap p p.2 := by unfold Swap; split <;> rfl

theorem swap_fixed {i y : Item} : Swap (fixed i) y ↔ y = i := by simp [Swap, fixed]
theorem swap_free {i y : Item} : Swap (free i) y ↔ y.blank = i.blank := by simp [Swap, free]

theorem blank_long {v : Int} {y : Item} : y.blank = Item.blank (.long v) ↔ ∃ w, y = .long w := by
  cases y <;> simp [Item.blank]
theorem blank_short {v : Int} {y : Item} : y.blank = Item.blank (.short v) ↔ ∃ w, y = .short w := by
  cases y <;> simp [Item.blank]
theorem blank_sshort {v : Int} {y : Item} : y.blank = Item.blank (.sshort v) ↔ ∃ w, y = .sshort w := by
  cases y <;> simp [Item.blank]
theorem blank_byte {v : Int} {y : Item} : y.blank = Item.blank (.byte v) ↔ ∃ w, y = .byte w := by
  cases y <;> simp [Item.blank]
theorem blank_word {v : W} {y : Item} : y.blank = Item.blank (.word v) ↔ ∃ w, y = .word w := by
  cases y <;> simp [Item.blank]
theorem noText_eq {s t : Bytes} : noText s = noText t ↔ s.length = t.length := by
  unfold noText
  exact ⟨fun h => by simpa using congrArg List.length h, fun h => by rw [h]⟩
theorem blank_text {s : Bytes} {y : Item} :
    y.blank = Item.blank (.text s) ↔ ∃ t : Bytes, y = .text t ∧ t.length = s.length := by
  cases y <;> simp [Item.blank, noText_eq]

/-! ## Any bytes are those of some item -/

theorem SameOutside.split {k l : List Bool} {a b c : Bytes} (h : SameOutside (k ++ l) (a ++ b) c)
    (ha : a.length = k.length) : ∃ c1 c2, c = c1 ++ c2 ∧ SameOutside k a c1 ∧ SameOutside l b c2 := by
  have hl := h.left
  have hr := h.right
  simp only [List.length_append] at hl hr
  refine ⟨c.take k.length, c.drop k.length, (List.take_append_drop _ _).symm,
    ⟨ha, by rw [List.length_take]; omega, fun p hp => ?_⟩,
    ⟨by omega, by rw [List.length_drop]; omega, fun p hp => ?_⟩⟩
  · by_cases hk : p < k.length
    · have := h.same p (by rwa [List.getElem?_append_left hk])
      rw [List.getElem?_append_left (by omega)] at this
      rw [this, List.getElem?_take, if_pos hk]
    · rw [List.getElem?_eq_none (by omega), List.getElem?_eq_none (by rw [List.length_take]; omega)]
  · have := h.same (k.length + p) (by rwa [List.getElem?_append_right (by omega), Nat.add_sub_cancel_left])
    rw [List.getElem?_append_right (by omega), ha, Nat.add_sub_cancel_left] at this
    rw [this, List.getElem?_drop]

theorem SameOutside.all_fixed {n : Nat} {a b : Bytes} (h : SameOutside (List.replicate n false) a b) : b = a := by
  refine List.ext_getElem? fun p => (h.same p ?_).symm
  rw [List.getElem?_replicate]
  split <;> simp

theorem long_of_bytes (pl : Plat) {b : Bytes} (h : b.length = pl.cLong) :
    ∃ v, IsLong pl v ∧ b = longBytes pl v := by
  have hr : readLong pl b = .ok (toSigned pl.longSize (pl.dec b), []) := by
    unfold readLong
    rw [P.bind_ok]
    exact ⟨b, [], readBytes_ok.2 ⟨h, by simp⟩, rfl⟩
  obtain ⟨v, -, hf, hb, -⟩ := (readLong_parses b _ []).1 hr
  exact ⟨v, hf (.long v) (by simp), by simpa [layout, Item.bytes] using hb⟩

theorem sshort_of_bytes (pl : Plat) {b : Bytes} (h : b.length = 2) :
    ∃ v, (Item.sshort v).Fits pl ∧ b = (Item.sshort v).bytes pl := by
  have hr : readSShort pl b = .ok (toSigned 2 (pl.dec b), []) := by
    unfold readSShort
    rw [P.bind_ok]
    exact ⟨b, [], readBytes_ok.2 ⟨h, by simp⟩, rfl⟩
  obtain ⟨v, -, hf, hb, -⟩ := (readSShort_parses b _ []).1 hr
  exact ⟨v, hf _ (by simp), by simpa [layout] using hb⟩

theorem short_of_bytes (pl : Plat) {b : Bytes} (h : b.length = 2) :
    ∃ v, (Item.short v).Fits pl ∧ b = (Item.short v).bytes pl := by
  have hr : readShort1 pl b = .ok ((pl.dec b : Int), []) := by
    unfold readShort1
    rw [P.bind_ok]
    exact ⟨b, [], readBytes_ok.2 ⟨h, by simp⟩, rfl⟩
  obtain ⟨v, -, hf, hb, -⟩ := ((Parses.of_inverts (readShort1_inv pl) writeShort_writes) b _ []).1 hr
  exact ⟨v, hf _ (by simp), by simpa [layout] using hb⟩

theorem byte_of_bytes (pl : Plat) {b : Bytes} (h : b.length = 1) :
    ∃ v, (Item.byte v).Fits pl ∧ b = (Item.byte v).bytes pl := by
  have hr : readByte b = .ok (toSigned 1 (decLE b), []) := by
    unfold readByte
    rw [P.bind_ok]
    exact ⟨b, [], readBytes_ok.2 ⟨h, by simp⟩, rfl⟩
  obtain ⟨v, -, hf, hb, -⟩ := (readByte_parses (pl := pl) b _ []).1 hr
  exact ⟨v, hf _ (by simp), by simpa [layout] using hb⟩

theorem word_of_bytes (pl : Plat) {b : Bytes} (h : b.length = 4) : ∃ w, b = (Item.word w).bytes pl := by
  obtain ⟨x, hr⟩ : ∃ x : W, readFloat1 pl b = .ok (x, []) := by
    refine ⟨FCodec.unpack (BitVec.ofNat 32 (pl.dec b)), ?_⟩
    unfold readFloat1
    rw [P.bind_ok]
    exact ⟨b, [], readBytes_ok.2 ⟨h, by simp⟩, rfl⟩
  obtain ⟨v, -, hf, hb, -⟩ := (readFloat1_parses b _ []).1 hr
  exact ⟨v, by simpa [layout] using hb⟩

theorem mask_length (p : Marked) : (p.2.bytes pl).length = (p.mask pl).length := by
  obtain ⟨c, i⟩ := p
  cases i <;> simp [Marked.mask, Item.bytes, intBytes_length, longBytes_length]

theorem swap_of_bytes {p : Marked} (fits : p.2.Fits pl) {b : Bytes}
    (h : SameOutside (p.mask pl) (p.2.bytes pl) b) : ∃ y, Swap p y ∧ y.Fits pl ∧ b = y.bytes pl := by
  obtain ⟨c, i⟩ := p
  have hlen := h.right
  rw [← mask_length] at hlen
  cases c with
  | false =>
    refine ⟨i, rfl, fits, ?_⟩
    cases i with
    | text s =>
      unfold Marked.mask at h
      simp only at h
      rw [← List.replicate_add] at h
      exact h.all_fixed
    | _ => exact h.all_fixed
  | true =>
    cases i with
    | long v =>
      obtain ⟨w, h1, h2⟩ := long_of_bytes pl (b := b) (by rw [hlen]; exact longBytes_length pl v)
      exact ⟨.long w, rfl, h1, h2⟩
    | short v =>
      obtain ⟨w, h1, h2⟩ := short_of_bytes pl (b := b) (by rw [hlen]; exact intBytes_length _ _ _)
      exact ⟨.short w, rfl, h1, h2⟩
    | sshort v =>
      obtain ⟨w, h1, h2⟩ := sshort_of_bytes pl (b := b) (by rw [hlen]; exact intBytes_length _ _ _)
      exact ⟨.sshort w, rfl, h1, h2⟩
    | byte v =>
      obtain ⟨w, h1, h2⟩ := byte_of_bytes pl (b := b) (by rw [hlen]; exact intBytes_length _ _ _)
      exact ⟨.byte w, rfl, h1, h2⟩
    | word v =>
      obtain ⟨w, h2⟩ := word_of_bytes pl (b := b) (by rw [hlen]; exact intBytes_length _ _ _)
      exact ⟨.word w, rfl, trivial, h2⟩
    | text s =>
      obtain ⟨b1, b2, rfl, h1, h2⟩ := SameOutside.split (k := List.replicate pl.cLong false)
        (l := List.replicate s.length true) (a := longBytes pl s.length) (b := s) h
        (by rw [List.length_replicate]; exact longBytes_length pl _)
      have e := h1.all_fixed
      have hl : b2.length = s.length := by rw [h2.right, List.length_replicate]
      refine ⟨.text b2, swap_free.2 (blank_text.2 ⟨b2, rfl, hl⟩), ?_, ?_⟩
      · show IsLong pl b2.length
        rw [hl]; exact fits
      · show _ = longBytes pl b2.length ++ b2
        rw [hl, e]

theorem swap_bytes {p : Marked} {y : Item} (h : Swap p y) :
    SameOutside (p.mask pl) (p.2.bytes pl) (y.bytes pl) := by
  obtain ⟨c, i⟩ := p
  cases c with
  | false =>
    obtain rfl : y = i := h
    exact .refl (mask_length (false, y))
  | true =>
    have h : y.blank = i.blank := h
    cases i with
    | long v =>
      obtain ⟨w, rfl⟩ := blank_long.1 h
      exact .const _ _ (longBytes_length _ _) (longBytes_length _ _) (by simp)
    | short v =>
      obtain ⟨w, rfl⟩ := blank_short.1 h
      exact .const _ _ (intBytes_length _ _ _) (intBytes_length _ _ _) (by simp)
    | sshort v =>
      obtain ⟨w, rfl⟩ := blank_sshort.1 h
      exact .const _ _ (intBytes_length _ _ _) (intBytes_length _ _ _) (by simp)
    | byte v =>
      obtain ⟨w, rfl⟩ := blank_byte.1 h
      exact .const _ _ (intBytes_length _ _ _) (intBytes_length _ _ _) (by simp)
    | word v =>
      obtain ⟨w, rfl⟩ := blank_word.1 h
      exact .const _ _ (intBytes_length _ _ _) (intBytes_length _ _ _) (by simp)
    | text s =>
      obtain ⟨t, rfl, ht⟩ := blank_text.1 h
      refine .append (.const _ _ (longBytes_length _ _) (longBytes_length _ _) fun _ => by rw [ht])
        (.const _ _ rfl ht (by simp))

/-! ## Lists of items -/

theorem swaps_of_bytes : ∀ (M : List Marked), (∀ p ∈ M, p.2.Fits pl) → ∀ {b : Bytes},
    SameOutside (M.flatMap (Marked.mask pl)) (layout pl (M.map Prod.snd)) b →
    ∃ ys, List.Forall₂ Swap M ys ∧ (∀ y ∈ ys, y.Fits pl) ∧ b = layout pl ys
  | [], _, b, h => by
    have : b = [] := List.length_eq_zero_iff.1 h.right
    exact ⟨[], .nil, by simp, this⟩
  | p :: M, fits, b, h => by
    obtain ⟨b1, b2, rfl, h1, h2⟩ := SameOutside.split (k := p.mask pl) (a := p.2.bytes pl)
      (l := M.flatMap (Marked.mask pl)) (b := layout pl (M.map Prod.snd)) h (mask_length p)
    obtain ⟨y, e1, e2, rfl⟩ := swap_of_bytes (fits p (by simp)) h1
    obtain ⟨ys, e3, e4, rfl⟩ := swaps_of_bytes M (fun q hq => fits q (by simp [hq])) h2
    exact ⟨y :: ys, .cons e1 e3, by simpa using ⟨e2, e4⟩, rfl⟩

theorem swaps_bytes {M : List Marked} {ys : List Item} (h : List.Forall₂ Swap M ys) :
    SameOutside (M.flatMap (Marked.mask pl)) (layout pl (M.map Prod.snd)) (layout pl ys) := by
  have e : layout pl (M.map Prod.snd) = M.flatMap fun p => p.2.bytes pl := by
    unfold layout
    rw [List.flatMap_map]
  rw [e]
  exact SameOutside.flatMap _ _ _ h fun _ _ _ _ h => swap_bytes h

theorem swaps_split : ∀ {M N : List Marked} {ys : List Item}, List.Forall₂ Swap (M ++ N) ys →
    ∃ y1 y2, ys = y1 ++ y2 ∧ List.Forall₂ Swap M y1 ∧ List.Forall₂ Swap N y2
  | [], _, ys, h => ⟨[], ys, rfl, .nil, h⟩
  | p :: M, N, _, .cons h1 h => by
    obtain ⟨y1, y2, rfl, h2, h3⟩ := swaps_split h
    exact ⟨_ :: y1, y2, rfl, .cons h1 h2, h3⟩

theorem swaps_words : ∀ {l : List W} {ys : List Item}, List.Forall₂ Swap ((l.map .word).map free) ys →
    ∃ l' : List W, l'.map .word = ys ∧ l'.length = l.length
  | [], _, .nil => ⟨[], rfl, rfl⟩
  | _ :: _, _, .cons h1 h => by
    obtain ⟨w, rfl⟩ := blank_word.1 (swap_free.1 h1)
    obtain ⟨l', rfl, hl⟩ := swaps_words h
    exact ⟨w :: l', rfl, by simp [hl]⟩

theorem words_swap : ∀ {l l' : List W}, l'.length = l.length →
    List.Forall₂ Swap ((l.map .word).map free) (l'.map .word)
  | [], [], _ => .nil
  | _ :: _, _ :: _, h => .cons (swap_free.2 rfl) (words_swap (by simpa using h))

theorem swaps_shorts : ∀ {l : List Int} {ys : List Item}, List.Forall₂ Swap ((l.map .short).map free) ys →
    ∃ l' : List Int, l'.map .short = ys ∧ l'.length = l.length
  | [], _, .nil => ⟨[], rfl, rfl⟩
  | _ :: _, _, .cons h1 h => by
    obtain ⟨w, rfl⟩ := blank_short.1 (swap_free.1 h1)
    obtain ⟨l', rfl, hl⟩ := swaps_shorts h
    exact ⟨w :: l', rfl, by simp [hl]⟩

theorem shorts_swap : ∀ {l l' : List Int}, l'.length = l.length →
    List.Forall₂ Swap ((l.map .short).map free) (l'.map .short)
  | [], [], _ => .nil
  | _ :: _, _ :: _, h => .cons (swap_free.2 rfl) (shorts_swap (by simpa using h))

theorem swaps_texts : ∀ {l : List Bytes} {ys : List Item}, List.Forall₂ Swap ((l.map .text).map free) ys →
    ∃ l' : List Bytes, l'.map .text = ys ∧ l'.map noText = l.map noText
  | [], _, .nil => ⟨[], rfl, rfl⟩
  | _ :: _, _, .cons h1 h => by
    obtain ⟨t, rfl, ht⟩ := blank_text.1 (swap_free.1 h1)
    obtain ⟨l', rfl, hl⟩ := swaps_texts h
    exact ⟨t :: l', rfl, by simp [hl, noText_eq.2 ht]⟩

theorem texts_swap : ∀ {l l' : List Bytes}, l'.map noText = l.map noText →
    List.Forall₂ Swap ((l.map .text).map free) (l'.map .text)
  | [], [], _ => .nil
  | [], _ :: _, h => by simp at h
  | _ :: _, [], h => by simp at h
  | s :: _, t :: _, h => by
    simp only [List.map_cons, List.cons.injEq] at h
    exact .cons (swap_free.2 (blank_text.2 ⟨t, rfl, noText_eq.1 h.1⟩)) (texts_swap h.2)

theorem swaps_long {v : Int} {ys : List Item} (h : List.Forall₂ Swap [fixed (.long v)] ys) : ys = [.long v] := by
  cases h with
  | cons h1 h2 =>
    cases h2
    rw [swap_fixed.1 h1]

theorem swaps_flat {α : Type} {R : α → α → Prop} (M : α → List Marked) (I : α → List Item)
    (h : ∀ a ys, List.Forall₂ Swap (M a) ys → ∃ a', I a' = ys ∧ R a a') :
    ∀ (l : List α) (ys : List Item), List.Forall₂ Swap (l.flatMap M) ys →
      ∃ l', l'.flatMap I = ys ∧ List.Forall₂ R l l'
  | [], _, .nil => ⟨[], rfl, .nil⟩
  | a :: l, ys, hs => by
    rw [List.flatMap_cons] at hs
    obtain ⟨y1, y2, rfl, h1, h2⟩ := swaps_split hs
    obtain ⟨a', rfl, h3⟩ := h a y1 h1
    obtain ⟨l', rfl, h4⟩ := swaps_flat M I h l y2 h2
    exact ⟨a' :: l', by simp, .cons h3 h4⟩

theorem flat_swap {α : Type} {R : α → α → Prop} (M : α → List Marked) (I : α → List Item)
    (h : ∀ a a', R a a' → List.Forall₂ Swap (M a) (I a')) {l l' : List α} (hR : List.Forall₂ R l l') :
    List.Forall₂ Swap (l.flatMap M) (l'.flatMap I) := by
  induction hR with
  | nil => exact .nil
  | cons h1 _ ih =>
    rw [List.flatMap_cons, List.flatMap_cons]
    exact List.rel_append (h _ _ h1) ih

theorem map_same_iff {α β : Type} (f : α → β) {l l' : List α} :
    l'.map f = l.map f ↔ List.Forall₂ (fun a a' => f a' = f a) l l' := by
  induction l generalizing l' with
  | nil => cases l' <;> simp
  | cons a l ih => cases l' <;> simp [ih]

/-! ## Parts of a mesh -/

theorem swaps_vec {v : Vec3 W} {ys : List Item} (h : List.Forall₂ Swap (v.items.map free) ys) :
    ∃ v' : Vec3 W, v'.items = ys := by
  obtain ⟨l', rfl, hl⟩ := swaps_words (l := v.floats) h
  match l', hl with
  | [x, y, z], _ => exact ⟨⟨x, y, z⟩, rfl⟩

theorem vec_swap (v v' : Vec3 W) : List.Forall₂ Swap (v.items.map free) v'.items :=
  words_swap (l := v.floats) (l' := v'.floats) rfl

theorem swaps_mat4 {v : Mat4 W} {ys : List Item} (h : List.Forall₂ Swap (v.items.map free) ys) :
    ∃ v' : Mat4 W, v'.items = ys := by
  obtain ⟨l', rfl, hl⟩ := swaps_words (l := v.floats) h
  match l', hl with
  | [a, b, c, d, e, f, g, h, i, j, k, l, m, n, o, p], _ =>
    exact ⟨⟨⟨a, b, c, d⟩, ⟨e, f, g, h⟩, ⟨i, j, k, l⟩, ⟨m, n, o, p⟩⟩, rfl⟩

theorem mat4_swap (v v' : Mat4 W) : List.Forall₂ Swap (v.items.map free) v'.items :=
  words_swap (l := v.floats) (l' := v'.floats) rfl

theorem swaps_opt {o : Option (Vec3 W)} {ys : List Item}
    (h : List.Forall₂ Swap ((optItems Vec3.items o).map free) ys) :
    ∃ o' : Option (Vec3 W), optItems Vec3.items o' = ys ∧
      o'.map (Vec3.map fun _ => ()) = o.map (Vec3.map fun _ => ()) := by
  cases o with
  | none =>
    cases h
    exact ⟨none, rfl, rfl⟩
  | some v =>
    obtain ⟨v', rfl⟩ := swaps_vec h
    exact ⟨some v', rfl, rfl⟩

theorem opt_swap {o o' : Option (Vec3 W)}
    (h : o'.map (Vec3.map fun _ => ()) = o.map (Vec3.map fun _ => ())) :
    List.Forall₂ Swap ((optItems Vec3.items o).map free) (optItems Vec3.items o') := by
  cases o <;> cases o'
  · exact .nil
  · simp at h
  · simp at h
  · exact vec_swap _ _

theorem swaps_vattr {a : VAttr} {ys : List Item} (h : List.Forall₂ Swap a.marked ys) :
    ∃ a' : VAttr, a'.items = ys := by
  obtain ⟨l', rfl, hl⟩ := swaps_shorts (l := [a.flag, a.offset, a.vartype, a.usage]) h
  match l', hl with
  | [x, y, z, w], _ => exact ⟨⟨x, y, z, w⟩, rfl⟩

theorem swaps_bone {b : Bone W} {ys : List Item} (h : List.Forall₂ Swap b.marked ys) :
    ∃ b' : Bone W, b'.items = ys ∧ b'.blank = b.blank := by
  unfold Bone.marked Bone.items at h
  rw [List.map_cons] at h
  cases h with
  | cons h1 h2 =>
    obtain ⟨w, rfl⟩ := blank_long.1 (swap_free.1 h1)
    obtain ⟨v', rfl⟩ := swaps_mat4 h2
    exact ⟨⟨w, v'⟩, rfl, rfl⟩

theorem bone_swap (b b' : Bone W) : List.Forall₂ Swap b.marked b'.items :=
  .cons (swap_free.2 rfl) (mat4_swap _ _)

theorem swaps_rig {r : Rig W} {ys : List Item} (h : List.Forall₂ Swap r.marked ys) :
    ∃ r' : Rig W, r'.items = ys ∧ r'.blank = r.blank := by
  unfold Rig.marked at h
  cases h with
  | cons h1 h2 =>
    obtain ⟨bs, rfl, hb⟩ := swaps_flat _ Bone.items (fun _ _ => swaps_bone) _ _ h2
    refine ⟨⟨r.bonenum, bs⟩, by rw [swap_fixed.1 h1]; rfl, ?_⟩
    unfold Rig.blank
    rw [(map_same_iff _).2 hb]

theorem rig_swap {r r' : Rig W} (h : r'.blank = r.blank) : List.Forall₂ Swap r.marked r'.items := by
  unfold Rig.blank at h
  rw [Rig.mk.injEq] at h
  exact .cons (swap_fixed.2 (by rw [h.1]))
    (flat_swap _ _ (fun a a' _ => bone_swap a a') ((map_same_iff _).1 h.2))

theorem swaps_material {a : Mat W} {ys : List Item} (h : List.Forall₂ Swap a.marked ys) :
    ∃ a' : Mat W, a'.items = ys ∧ a'.blank = a.blank := by
  unfold Mat.marked at h
  obtain ⟨y1, y2, rfl, h1, h2⟩ := swaps_split h
  obtain ⟨y3, y4, rfl, h3, h4⟩ := swaps_split h1
  obtain ⟨y5, y6, rfl, h5, h6⟩ := swaps_split h3
  rw [List.map_append, List.map_append] at h2
  obtain ⟨y7, y8, rfl, h7, h8⟩ := swaps_split h2
  obtain ⟨y9, y10, rfl, h9, h10⟩ := swaps_split h7
  obtain ⟨al, rfl, hal⟩ : ∃ al : Option Int, optItems (fun a => [.long a]) al = y5 ∧
      al.map (fun _ => (0 : Int)) = a.alphamode.map fun _ => 0 := by
    cases ha : a.alphamode with
    | none =>
      rw [ha] at h5
      cases h5
      exact ⟨none, rfl, rfl⟩
    | some v =>
      rw [ha] at h5
      obtain _ | ⟨g1, _ | _⟩ := h5
      obtain ⟨w, rfl⟩ := blank_long.1 (swap_free.1 g1)
      exact ⟨some w, rfl, rfl⟩
  obtain _ | ⟨g1, _ | ⟨g2, _ | ⟨g3, _ | _⟩⟩⟩ := h6
  obtain ⟨t1, rfl, e1⟩ := blank_text.1 (swap_free.1 g1)
  obtain ⟨t2, rfl, e2⟩ := blank_text.1 (swap_free.1 g2)
  obtain rfl := swap_fixed.1 g3
  obtain ⟨ms, rfl, hms⟩ := swaps_texts h4
  obtain _ | ⟨k1, _ | ⟨k2, _ | ⟨k3, _ | ⟨k4, _ | ⟨k5, _ | ⟨k6, _ | _⟩⟩⟩⟩⟩⟩ := h9
  obtain ⟨n1, rfl⟩ := blank_long.1 (swap_free.1 k1)
  obtain ⟨n2, rfl⟩ := blank_long.1 (swap_free.1 k2)
  obtain ⟨n3, rfl⟩ := blank_long.1 (swap_free.1 k3)
  obtain ⟨n4, rfl⟩ := blank_long.1 (swap_free.1 k4)
  obtain ⟨n5, rfl⟩ := blank_long.1 (swap_free.1 k5)
  obtain ⟨n6, rfl⟩ := blank_long.1 (swap_free.1 k6)
  obtain ⟨o1, rfl, ho1⟩ := swaps_opt h10
  obtain ⟨o2, rfl, ho2⟩ := swaps_opt h8
  refine ⟨⟨al, t1, t2, a.mapnum, ms, n1, n2, n3, n4, n5, n6, o1, o2⟩, ?_, ?_⟩
  · simp [Mat.items]
  · simp only [Mat.blank, hal, noText_eq.2 e1, noText_eq.2 e2, hms, ho1, ho2]

theorem material_swap {a a' : Mat W} (h : a'.blank = a.blank) : List.Forall₂ Swap a.marked a'.items := by
  unfold Mat.blank at h
  simp only [Mat.mk.injEq] at h
  obtain ⟨h1, h2, h3, h4, h5, -, -, -, -, -, -, h6, h7⟩ := h
  have e : a'.items = optItems (fun a => [.long a]) a'.alphamode ++
      [.text a'.fxfile, .text a'.technique, .long a'.mapnum] ++ a'.maps.map .text ++
      ([.long a'.vstart, .long a'.istart, .long a'.inum, .long a'.vnum, .long a'.u4, .long a'.u5] ++
      optItems Vec3.items a'.mmin ++ optItems Vec3.items a'.mmax) := by
    simp [Mat.items]
  rw [e]
  unfold Mat.marked
  refine List.rel_append (List.rel_append (List.rel_append ?_ ?_) (texts_swap h5)) ?_
  · cases ha : a.alphamode <;> cases ha' : a'.alphamode
    · exact .nil
    · rw [ha, ha'] at h1; simp at h1
    · rw [ha, ha'] at h1; simp at h1
    · exact .cons (swap_free.2 rfl) .nil
  · exact .cons (swap_free.2 (blank_text.2 ⟨_, rfl, noText_eq.1 h2⟩))
      (.cons (swap_free.2 (blank_text.2 ⟨_, rfl, noText_eq.1 h3⟩)) (.cons (swap_fixed.2 (by rw [h4])) .nil))
  · rw [List.map_append, List.map_append]
    refine List.rel_append (List.rel_append ?_ (opt_swap h6)) (opt_swap h7)
    exact .cons (swap_free.2 rfl) (.cons (swap_free.2 rfl) (.cons (swap_free.2 rfl) (.cons (swap_free.2 rfl)
      (.cons (swap_free.2 rfl) (.cons (swap_free.2 rfl) .nil)))))

/-! ## Lods -/

/-- The part of a lod stored in the first pass may differ. -/
structure NodeSwap (k : Kind) (l l' : Lod W) : Prop where
  blank : l'.blank k = l.blank k
  matnum : l'.matnum = l.matnum
  materials : l'.materials = l.materials

theorem swaps_nodes {k : Kind} {l : Lod W} {ys : List Item} (h : List.Forall₂ Swap (l.nodeMarked k) ys) :
    ∃ l' : Lod W, l'.nodeItems k = ys ∧ NodeSwap k l l' := by
  unfold Lod.nodeMarked at h
  obtain ⟨y1, y2, rfl, h1, h2⟩ := swaps_split h
  rw [List.map_append, List.map_append] at h1
  obtain ⟨y3, y4, rfl, h3, h4⟩ := swaps_split h1
  obtain ⟨y5, y6, rfl, h5, h6⟩ := swaps_split h3
  obtain ⟨mn, rfl⟩ := swaps_vec h5
  obtain ⟨mx, rfl⟩ := swaps_vec h6
  obtain ⟨pv, rfl, hpv⟩ := swaps_opt h4
  by_cases hk : k.isSkinned = true
  · rw [if_pos hk] at h2
    obtain _ | ⟨g1, g2⟩ := h2
    obtain rfl := swap_fixed.1 g1
    obtain ⟨rs, rfl, hrs⟩ := swaps_flat _ Rig.items (fun _ _ => swaps_rig) _ _ g2
    refine ⟨{ l with min := mn, max := mx, pivot := pv, rigs := rs }, ?_, ?_, rfl, rfl⟩
    · simp [Lod.nodeItems, hk]
    · simp only [Lod.blank, hpv, (map_same_iff _).2 hrs]
      rfl
  · rw [if_neg hk] at h2
    obtain _ | ⟨g1, g2⟩ := h2
    obtain ⟨n, rfl, hn⟩ : ∃ n, _ = Item.long n ∧ (k.isBundled = false → n = l.nodenum) := by
      cases hb : k.isBundled with
      | false =>
        rw [hb] at g1
        exact ⟨l.nodenum, swap_fixed.1 g1, fun _ => rfl⟩
      | true =>
        rw [hb] at g1
        obtain ⟨w, hw⟩ := blank_long.1 (swap_free.1 g1)
        exact ⟨w, hw, by simp⟩
    rw [List.map_flatMap] at g2
    obtain ⟨ns, rfl, hns⟩ := swaps_flat (R := fun _ _ => True) (fun a : Mat4 W => a.items.map free) Mat4.items
      (fun _ _ h => (swaps_mat4 h).imp fun _ h => ⟨h, trivial⟩) _ _ g2
    refine ⟨{ l with min := mn, max := mx, pivot := pv, nodenum := n, nodes := ns }, ?_, ?_, rfl, rfl⟩
    · simp [Lod.nodeItems, hk]
    · have e : ns.map (Mat4.map fun _ => ()) = l.nodes.map (Mat4.map fun _ => ()) :=
        (map_same_iff _).2 (hns.imp fun _ _ _ => rfl)
      have e' : (if k.isSkinned = false ∧ k.isBundled = true then 0 else n) =
          if k.isSkinned = false ∧ k.isBundled = true then 0 else l.nodenum := by
        split
        · rfl
        · rename_i hc
          refine hn ?_
          cases hb : k.isBundled with
          | false => rfl
          | true => exact absurd ⟨by simpa using hk, hb⟩ hc
      simp only [Lod.blank, hpv, e, e']
      rfl

theorem nodes_swap {k : Kind} {l l' : Lod W} (h : l'.blank k = l.blank k) :
    List.Forall₂ Swap (l.nodeMarked k) (l'.nodeItems k) := by
  unfold Lod.blank at h
  simp only [Lod.mk.injEq] at h
  obtain ⟨-, -, h1, h2, h3, h4, h5, -, -⟩ := h
  unfold Lod.nodeMarked Lod.nodeItems
  rw [List.map_append, List.map_append]
  refine List.rel_append (List.rel_append (List.rel_append (vec_swap _ _) (vec_swap _ _)) (opt_swap h1)) ?_
  by_cases hk : k.isSkinned = true
  · rw [if_pos hk, if_pos hk]
    exact .cons (swap_fixed.2 (by rw [h2])) (flat_swap Rig.marked Rig.items (fun _ _ => rig_swap) ((map_same_iff Rig.blank).1 h3))
  · rw [if_neg hk, if_neg hk, List.map_flatMap]
    refine .cons ?_ (flat_swap _ _ (fun a a' _ => mat4_swap a a') ((map_same_iff _).1 h5))
    cases hb : k.isBundled with
    | true => exact swap_free.2 rfl
    | false =>
      rw [if_neg (by simp [hb]), if_neg (by simp [hb])] at h4
      rw [h4]
      exact swap_fixed.2 rfl

/-- The part of a lod stored in the second pass may differ. -/
structure MatSwap (k : Kind) (l l' : Lod W) : Prop where
  blank : l'.blank k = l.blank k
  nodes : l'.nodeItems k = l.nodeItems k

theorem swaps_mats {k : Kind} {l : Lod W} {ys : List Item} (h : List.Forall₂ Swap l.matMarked ys) :
    ∃ l' : Lod W, l'.matItems = ys ∧ MatSwap k l l' := by
  unfold Lod.matMarked at h
  obtain _ | ⟨g1, g2⟩ := h
  obtain rfl := swap_fixed.1 g1
  obtain ⟨ms, rfl, hms⟩ := swaps_flat _ Mat.items (fun _ _ => swaps_material) _ _ g2
  refine ⟨{ l with materials := ms }, rfl, ?_, rfl⟩
  simp only [Lod.blank, (map_same_iff _).2 hms]

theorem mats_swap {k : Kind} {l l' : Lod W} (h : l'.blank k = l.blank k) :
    List.Forall₂ Swap l.matMarked l'.matItems := by
  unfold Lod.blank at h
  simp only [Lod.mk.injEq] at h
  exact .cons (swap_fixed.2 (by rw [h.2.2.2.2.2.2.2.1]))
    (flat_swap Mat.marked Mat.items (fun _ _ => material_swap) ((map_same_iff Mat.blank).1 h.2.2.2.2.2.2.2.2))

/-! ## Geoms -/

theorem swaps_geoms {R : Lod W → Lod W → Prop} (M : Lod W → List Marked) (I : Lod W → List Item)
    (h : ∀ l ys, List.Forall₂ Swap (M l) ys → ∃ l', I l' = ys ∧ R l l') (gs : List (Geom W)) (ys : List Item)
    (hs : List.Forall₂ Swap (gs.flatMap fun g => g.lods.flatMap M) ys) :
    ∃ gs' : List (Geom W), (gs'.flatMap fun g => g.lods.flatMap I) = ys ∧
      List.Forall₂ (fun g g' => g'.lodnum = g.lodnum ∧ List.Forall₂ R g.lods g'.lods) gs gs' := by
  refine swaps_flat (fun g : Geom W => g.lods.flatMap M) (fun g => g.lods.flatMap I) (fun g ys hg => ?_) gs ys hs
  obtain ⟨ls, rfl, hl⟩ := swaps_flat M I h g.lods ys hg
  exact ⟨⟨g.lodnum, ls⟩, rfl, rfl, hl⟩

theorem flatMap_same {α β : Type} {R : α → α → Prop} (f : α → List β) (h : ∀ a a', R a a' → f a' = f a)
    {l l' : List α} (hR : List.Forall₂ R l l') : l'.flatMap f = l.flatMap f := by
  induction hR with
  | nil => rfl
  | cons h1 _ ih => rw [List.flatMap_cons, List.flatMap_cons, ih, h _ _ h1]

theorem geoms_blank {k : Kind} {R : Lod W → Lod W → Prop} (h : ∀ l l', R l l' → l'.blank k = l.blank k)
    {gs gs' : List (Geom W)}
    (hR : List.Forall₂ (fun g g' => g'.lodnum = g.lodnum ∧ List.Forall₂ R g.lods g'.lods) gs gs') :
    gs'.map (Geom.blank k) = gs.map (Geom.blank k) := by
  refine (map_same_iff _).2 (hR.imp fun g g' hg => ?_)
  unfold Geom.blank
  rw [hg.1, (map_same_iff _).2 (hg.2.imp h)]

theorem geoms_swap {k : Kind} (M : Lod W → List Marked) (I : Lod W → List Item)
    (h : ∀ l l' : Lod W, l'.blank k = l.blank k → List.Forall₂ Swap (M l) (I l')) {gs gs' : List (Geom W)}
    (e : gs'.map (Geom.blank k) = gs.map (Geom.blank k)) :
    List.Forall₂ Swap (gs.flatMap fun g => g.lods.flatMap M) (gs'.flatMap fun g => g.lods.flatMap I) := by
  refine flat_swap _ _ (fun g g' hg => ?_) ((map_same_iff _).1 e)
  simp only [Geom.blank, Geom.mk.injEq] at hg
  exact flat_swap _ _ h ((map_same_iff _).1 hg.2)

/-! ## Meshes -/

theorem map_snd_free (l : List Item) : (l.map free).map Prod.snd = l := by
  rw [List.map_map]
  exact List.map_id l

theorem Rig.marked_items (r : Rig W) : r.marked.map Prod.snd = r.items := by
  unfold Rig.marked Rig.items
  rw [List.map_cons, List.map_flatMap]
  have e : r.bones.flatMap (fun b => b.marked.map Prod.snd) = r.bones.flatMap Bone.items :=
    List.flatMap_congr fun b _ => map_snd_free _
  rw [e]
  rfl

theorem Lod.nodeMarked_items (k : Kind) (l : Lod W) : (l.nodeMarked k).map Prod.snd = l.nodeItems k := by
  unfold Lod.nodeMarked Lod.nodeItems
  rw [List.map_append, map_snd_free]
  congr 1
  split
  · rw [List.map_cons, List.map_flatMap]
    congr 1
    exact List.flatMap_congr fun r _ => r.marked_items
  · rw [List.map_cons, map_snd_free]

theorem Mat.marked_items (a : Mat W) : a.marked.map Prod.snd = a.items := by
  unfold Mat.marked Mat.items
  rw [List.map_append, List.map_append, List.map_append, map_snd_free, map_snd_free, map_snd_free]
  simp [free, fixed]

theorem Lod.matMarked_items (l : Lod W) : l.matMarked.map Prod.snd = l.matItems := by
  unfold Lod.matMarked Lod.matItems
  rw [List.map_cons, List.map_flatMap]
  congr 1
  exact List.flatMap_congr fun a _ => a.marked_items

theorem Mesh.marked_items (m : Mesh W) : m.marked.map Prod.snd = m.items := by
  unfold Mesh.marked Mesh.items Mesh.preamble Preamble.items
  simp only [List.map_append, List.map_flatMap, Lod.nodeMarked_items, Lod.matMarked_items,
    VAttr.marked, List.map_map]
  have e : (if m.kind.isSkinned then [] else [free (.long m.u2)]).map Prod.snd =
      if m.kind.isSkinned then [] else [Item.long m.u2] := by split <;> rfl
  rw [e]
  simp [Head.marked, Head.items, free, fixed, Function.comp_def]

theorem swaps_mesh {m : Mesh W} {ys : List Item} (h : List.Forall₂ Swap m.marked ys) :
    ∃ m' : Mesh W, m'.items = ys ∧ m'.blank = m.blank := by
  unfold Mesh.marked at h
  obtain ⟨z1, z12, rfl, h, g12⟩ := swaps_split h
  obtain ⟨z1, z11, rfl, h, g11⟩ := swaps_split h
  obtain ⟨z1, z10, rfl, h, g10⟩ := swaps_split h
  obtain ⟨z1, z9, rfl, h, g9⟩ := swaps_split h
  obtain ⟨z1, z8, rfl, h, g8⟩ := swaps_split h
  obtain ⟨z1, z7, rfl, h, g7⟩ := swaps_split h
  obtain ⟨z1, z6, rfl, h, g6⟩ := swaps_split h
  obtain ⟨z1, z5, rfl, h, g5⟩ := swaps_split h
  obtain ⟨z1, z4, rfl, h, g4⟩ := swaps_split h
  obtain ⟨z1, z3, rfl, h, g3⟩ := swaps_split h
  obtain ⟨z1, z2, rfl, h, g2⟩ := swaps_split h
  obtain _ | ⟨k1, _ | ⟨k2, _ | ⟨k3, _ | ⟨k4, _ | ⟨k5, _ | _⟩⟩⟩⟩⟩ := h
  obtain ⟨n1, rfl⟩ := blank_long.1 (swap_free.1 k1)
  obtain rfl := swap_fixed.1 k2
  obtain ⟨n3, rfl⟩ := blank_long.1 (swap_free.1 k3)
  obtain ⟨n4, rfl⟩ := blank_long.1 (swap_free.1 k4)
  obtain ⟨n5, rfl⟩ := blank_long.1 (swap_free.1 k5)
  obtain _ | ⟨k6, _ | ⟨k7, _ | _⟩⟩ := g2
  obtain ⟨n6, rfl⟩ := blank_byte.1 (swap_free.1 k6)
  obtain rfl := swap_fixed.1 k7
  have e3 : z3 = m.geoms.map fun g => Item.long g.lodnum := by
    rw [List.forall₂_map_left_iff] at g3
    have : List.Forall₂ (fun y (g : Geom W) => y = Item.long g.lodnum) z3 m.geoms :=
      (g3.imp fun _ _ h => swap_fixed.1 h).flip
    rw [← List.forall₂_map_right_iff (R := fun a b => a = b), List.forall₂_eq_eq_eq] at this
    exact this
  obtain rfl := swaps_long g4
  obtain ⟨va, rfl, hva⟩ := swaps_flat (R := fun _ _ => True) VAttr.marked VAttr.items
    (fun _ _ h => (swaps_vattr h).imp fun _ h => ⟨h, trivial⟩) _ _ g5
  obtain _ | ⟨k8, _ | ⟨k9, _ | ⟨k10, _ | _⟩⟩⟩ := g6
  obtain rfl := swap_fixed.1 k8
  obtain rfl := swap_fixed.1 k9
  obtain rfl := swap_fixed.1 k10
  obtain ⟨vs, rfl, hvs⟩ := swaps_words g7
  obtain rfl := swaps_long g8
  obtain ⟨ix, rfl, hix⟩ : ∃ ix : OneOrMany Int, ix.elems.map .short = z9 ∧ ix.blank = m.index.blank := by
    obtain ⟨l, rfl, hl⟩ := swaps_shorts g9
    cases hi : m.index with
    | one v =>
      rw [hi] at hl
      match l, hl with
      | [w], _ => exact ⟨.one w, rfl, rfl⟩
    | many l0 =>
      rw [hi] at hl
      refine ⟨.many l, rfl, ?_⟩
      simp only [OneOrMany.blank, OneOrMany.many.injEq, List.map_const']
      exact congrArg (List.replicate · 0) hl
  obtain ⟨u2, rfl, hu2⟩ : ∃ u2 : Int, (if m.kind.isSkinned then [] else [Item.long u2]) = z10 ∧
      (m.kind.isSkinned = true → u2 = m.u2) := by
    by_cases hk : m.kind.isSkinned = true
    · rw [if_pos hk] at g10
      cases g10
      exact ⟨m.u2, by rw [if_pos hk], fun _ => rfl⟩
    · rw [if_neg hk] at g10
      obtain _ | ⟨k11, _ | _⟩ := g10
      obtain ⟨n, rfl⟩ := blank_long.1 (swap_free.1 k11)
      exact ⟨n, by rw [if_neg hk], fun h => absurd h hk⟩
  obtain ⟨gs1, rfl, hg1⟩ := swaps_geoms (Lod.nodeMarked m.kind) (Lod.nodeItems m.kind)
    (fun _ _ => swaps_nodes) _ _ g11
  have em : (m.geoms.flatMap fun g => g.lods.flatMap Lod.matMarked) =
      gs1.flatMap fun g => g.lods.flatMap Lod.matMarked := by
    refine (flatMap_same _ (fun g g' hg => ?_) hg1).symm
    refine flatMap_same _ (fun l l' hl => ?_) hg.2
    unfold Lod.matMarked
    rw [hl.matnum, hl.materials]
  rw [em] at g12
  obtain ⟨gs2, rfl, hg2⟩ := swaps_geoms (R := MatSwap m.kind) Lod.matMarked Lod.matItems
    (fun _ _ => swaps_mats) _ _ g12
  have en : (gs2.flatMap fun g => g.lods.flatMap (Lod.nodeItems m.kind)) =
      gs1.flatMap fun g => g.lods.flatMap (Lod.nodeItems m.kind) := by
    refine flatMap_same _ (fun g g' hg => ?_) hg2
    exact flatMap_same _ (fun l l' hl => hl.nodes) hg.2
  have eb : gs2.map (Geom.blank m.kind) = m.geoms.map (Geom.blank m.kind) := by
    rw [geoms_blank (fun _ _ h => h.blank) hg2, geoms_blank (fun _ _ h => h.blank) hg1]
  have el : gs2.map (fun g => Item.long g.lodnum) = m.geoms.map fun g => Item.long g.lodnum := by
    have := congrArg (List.map fun g : Geom Unit => Item.long g.lodnum) eb
    rw [List.map_map, List.map_map] at this
    exact this
  refine ⟨{ m with
    head := ⟨n1, m.head.version, n3, n4, n5⟩, u1 := n6, geoms := gs2, vattrs := va, vertices := vs,
    index := ix, u2 := u2 }, ?_, ?_⟩
  · rw [e3, ← el, ← en]
    simp [Mesh.items, Mesh.preamble, Preamble.items, Head.items, Function.comp_def]
  · have e1 : va.map (fun _ => (⟨0, 0, 0, 0⟩ : VAttr)) = m.vattrs.map fun _ => ⟨0, 0, 0, 0⟩ :=
      (map_same_iff _).2 (hva.imp fun _ _ _ => rfl)
    have e2 : vs.map (fun _ => ()) = m.vertices.map fun _ => () := by
      rw [List.map_const', List.map_const', hvs]
    have e4 : (if m.kind.isSkinned = true then u2 else 0) = if m.kind.isSkinned = true then m.u2 else 0 := by
      split
      · rename_i hk; exact hu2 hk
      · rfl
    simp only [Mesh.blank, eb, e1, e2, hix, e4]
    rfl

theorem mesh_swap {m m' : Mesh W} (h : m'.blank = m.blank) : List.Forall₂ Swap m.marked m'.items := by
  unfold Mesh.blank at h
  simp only [Mesh.mk.injEq] at h
  obtain ⟨h1, h2, -, h3, h4, h5, h6, h7, h8, h9, h10, h11, h12, -⟩ := h
  have e : m'.items = m'.head.items ++ [.byte m'.u1, .long m'.geomnum] ++
      (m'.geoms.map fun g => .long g.lodnum) ++ [.long m'.vertattribnum] ++ m'.vattrs.flatMap VAttr.items ++
      [.long m'.vertformat, .long m'.vertstride, .long m'.vertnum] ++ m'.vertices.map .word ++
      [.long m'.indexnum] ++ m'.index.elems.map .short ++
      (if m'.kind.isSkinned then [] else [.long m'.u2]) ++
      m'.geoms.flatMap (fun g => g.lods.flatMap (Lod.nodeItems m'.kind)) ++
      m'.geoms.flatMap (fun g => g.lods.flatMap Lod.matItems) := by
    simp [Mesh.items, Mesh.preamble, Preamble.items, Function.comp_def]
  rw [e, h1, h3, h5, h7, h8, h9, h11]
  rw [h1] at h4
  unfold Mesh.marked
  refine List.rel_append (List.rel_append (List.rel_append (List.rel_append (List.rel_append (List.rel_append
    (List.rel_append (List.rel_append (List.rel_append (List.rel_append (List.rel_append ?_ ?_) ?_) ?_) ?_) ?_)
    ?_) ?_) ?_) ?_) ?_) ?_
  · simp only [Head.blank, Head.mk.injEq] at h2
    exact .cons (swap_free.2 rfl) (.cons (swap_fixed.2 (by rw [h2.2.1])) (.cons (swap_free.2 rfl)
      (.cons (swap_free.2 rfl) (.cons (swap_free.2 rfl) .nil))))
  · exact .cons (swap_free.2 rfl) (.cons (swap_fixed.2 rfl) .nil)
  · rw [List.forall₂_map_left_iff, List.forall₂_map_right_iff]
    refine ((map_same_iff _).1 h4).imp fun g g' hg => swap_fixed.2 ?_
    simp only [Geom.blank, Geom.mk.injEq] at hg
    rw [hg.1]
  · exact .cons (swap_fixed.2 rfl) .nil
  · refine flat_swap (R := fun _ _ => True) VAttr.marked VAttr.items (fun a a' _ =>
      shorts_swap (l := [a.flag, a.offset, a.vartype, a.usage])
        (l' := [a'.flag, a'.offset, a'.vartype, a'.usage]) rfl) ?_
    exact ((map_same_iff _).1 h6).imp fun _ _ _ => trivial
  · exact .cons (swap_fixed.2 rfl) (.cons (swap_fixed.2 rfl) (.cons (swap_fixed.2 rfl) .nil))
  · exact words_swap (by simpa using congrArg List.length h10)
  · exact .cons (swap_fixed.2 rfl) .nil
  · refine shorts_swap ?_
    cases hi : m.index <;> cases hi' : m'.index <;> rw [hi, hi'] at h12 <;>
      simp only [OneOrMany.blank, OneOrMany.many.injEq, reduceCtorEq] at h12
    · rfl
    · simpa [OneOrMany.elems] using congrArg List.length h12
  · split
    · exact .nil
    · exact .cons (swap_free.2 rfl) .nil
  · exact geoms_swap _ _ (fun _ _ => nodes_swap) h4
  · exact geoms_swap _ _ (fun _ _ => mats_swap) h4

/-! ## Well-formed meshes -/

theorem Mat.wf_blank {k : Kind} {version : Int} {a : Mat F} : MatWF k version a.blank ↔ MatWF k version a := by
  constructor
  · intro h
    exact ⟨by simpa [Mat.blank] using h.alphamode, by simpa [Mat.blank] using h.maps,
      by simpa [Mat.blank] using h.mmin, by simpa [Mat.blank] using h.mmax⟩
  · intro h
    exact ⟨by simpa [Mat.blank] using h.alphamode, by simpa [Mat.blank] using h.maps,
      by simpa [Mat.blank] using h.mmin, by simpa [Mat.blank] using h.mmax⟩

theorem Lod.nodes_wf_blank {k : Kind} {version : Int} {l : Lod F} :
    LodNodesWF k version (l.blank k) ↔ LodNodesWF k version l := by
  have hn : ∀ n : Int, (if k.isSkinned || k.isBundled then 0 else
      (if k.isSkinned = false ∧ k.isBundled = true then 0 else n).toNat) =
      if k.isSkinned || k.isBundled then 0 else n.toNat := by
    intro n
    cases h1 : k.isSkinned <;> cases h2 : k.isBundled <;> simp
  have hb : (∀ r ∈ (l.blank k).rigs, r.bones.length = r.bonenum.toNat) ↔
      ∀ r ∈ l.rigs, r.bones.length = r.bonenum.toNat := by
    simp [Lod.blank, Rig.blank]
  constructor
  · intro h
    refine ⟨by simpa [Lod.blank] using h.pivot, by simpa [Lod.blank] using h.rigs, hb.1 h.bones, h.no_rigs, ?_, ?_⟩
    · have := h.nodes
      simp only [Lod.blank, List.length_map] at this
      rw [this, hn]
    · intro hk
      have := h.no_nodes hk
      simpa [Lod.blank, hk] using this
  · intro h
    refine ⟨by simpa [Lod.blank] using h.pivot, by simpa [Lod.blank] using h.rigs, hb.2 h.bones, h.no_rigs, ?_, ?_⟩
    · simp only [Lod.blank, List.length_map]
      rw [h.nodes, hn]
    · intro hk
      have := h.no_nodes hk
      simpa [Lod.blank, hk] using this

theorem Lod.mats_wf_blank {k : Kind} {version : Int} {l : Lod F} :
    LodMatsWF k version (l.blank k) ↔ LodMatsWF k version l := by
  constructor
  · intro h
    refine ⟨by simpa [Lod.blank] using h.materials, fun a ha => Mat.wf_blank.1 (h.each _ ?_)⟩
    exact List.mem_map_of_mem ha
  · intro h
    refine ⟨by simpa [Lod.blank] using h.materials, fun a ha => ?_⟩
    obtain ⟨b, hb, rfl⟩ := List.mem_map.1 ha
    exact Mat.wf_blank.2 (h.each _ hb)

theorem Geom.wf_blank {k : Kind} {version : Int} {g : Geom F} :
    GeomWF k version (g.blank k) ↔ GeomWF k version g := by
  constructor
  · intro h
    exact ⟨by simpa [Geom.blank] using h.lods,
      fun l hl => Lod.nodes_wf_blank.1 (h.nodes _ (List.mem_map_of_mem hl)),
      fun l hl => Lod.mats_wf_blank.1 (h.mats _ (List.mem_map_of_mem hl))⟩
  · intro h
    refine ⟨by simpa [Geom.blank] using h.lods, fun l hl => ?_, fun l hl => ?_⟩
    · obtain ⟨b, hb, rfl⟩ := List.mem_map.1 hl
      exact Lod.nodes_wf_blank.2 (h.nodes _ hb)
    · obtain ⟨b, hb, rfl⟩ := List.mem_map.1 hl
      exact Lod.mats_wf_blank.2 (h.mats _ hb)

theorem IndexWF.blank {n : Int} {x : OneOrMany Int} : IndexWF n x.blank ↔ IndexWF n x := by
  cases x <;> simp [OneOrMany.blank, IndexWF]

theorem Mesh.wf_blank {m : Mesh F} : MeshWF m.blank ↔ MeshWF m := by
  have ha : m.blank.announced = m.announced := rfl
  constructor
  · intro h
    refine ⟨by simpa [Mesh.blank] using h.geoms,
      fun g hg => Geom.wf_blank.1 (h.geom _ (List.mem_map_of_mem hg)), by simpa [Mesh.blank] using h.vattrs,
      h.vertformat, ?_, by simpa [Mesh.blank] using h.not_one, IndexWF.blank.1 h.index, fun hk => ?_⟩
    · rw [← ha, ← h.vertices]
      simp [Mesh.blank]
    · have := h.u2 hk
      simpa [Mesh.blank, hk] using this
  · intro h
    refine ⟨by simpa [Mesh.blank] using h.geoms, fun g hg => ?_, by simpa [Mesh.blank] using h.vattrs,
      h.vertformat, ?_, by simpa [Mesh.blank] using h.not_one, IndexWF.blank.2 h.index, fun hk => ?_⟩
    · obtain ⟨b, hb, rfl⟩ := List.mem_map.1 hg
      exact Geom.wf_blank.2 (h.geom _ hb)
    · rw [ha, ← h.vertices]
      simp [Mesh.blank]
    · have := h.u2 hk
      simpa [Mesh.blank, show m.kind.isSkinned = true from hk] using this

/-! ## Floats do not matter -/

theorem Mat.blank_map {G : Type} (f : F → G) (a : Mat F) : (a.map f).blank = a.blank := by
  simp only [Mat.blank, Mat.map, Option.map_map, Function.comp_def, Vec3.map]

theorem Lod.blank_map {G : Type} (f : F → G) (k : Kind) (l : Lod F) : (l.map f).blank k = l.blank k := by
  simp only [Lod.blank, Lod.map, Option.map_map, List.map_map, Function.comp_def, Mat.blank_map]
  simp only [Vec3.map, Mat4.map, Vec4.map, Rig.blank, Rig.map, List.map_map, Function.comp_def, Bone.blank]
  rfl

theorem Mesh.blank_map {G : Type} (f : F → G) (m : Mesh F) : (m.map f).blank = m.blank := by
  simp only [Mesh.blank, Mesh.map, List.map_map, Function.comp_def, Geom.blank, Geom.map, Lod.blank_map]
  rfl

theorem Mesh.freeMask_map {G : Type} (f : F → G) (m : Mesh F) (pl : Plat) :
    (m.map f).freeMask pl = m.freeMask pl := by
  unfold Mesh.freeMask
  rw [Mesh.map_map]
  rfl

/-- The item with its float, if it is one, replaced. -/
def Item.each (f : W → W) : Item → Item
  | .word w => .word (f w)
  | i => i

def Marked.each (f : W → W) (p : Marked) : Marked := (p.1, p.2.each f)

theorem Marked.mask_each (f : W → W) (p : Marked) : (p.each f).mask pl = p.mask pl := by
  obtain ⟨c, i⟩ := p
  cases i <;> rfl

theorem map_free_each (f : W → W) (l : List Item) :
    (l.map free).map (Marked.each f) = (l.map (Item.each f)).map free := by
  rw [List.map_map, List.map_map]
  rfl

theorem opt_each (f : W → W) (o : Option (Vec3 W)) :
    optItems Vec3.items (o.map (Vec3.map f)) = (optItems Vec3.items o).map (Item.each f) := by
  cases o <;> rfl

theorem Rig.marked_each (f : W → W) (r : Rig W) : (r.map f).marked = r.marked.map (Marked.each f) := by
  unfold Rig.marked
  rw [List.map_cons, List.map_flatMap]
  show _ :: (r.bones.map _).flatMap _ = _
  rw [List.flatMap_map]
  rfl

theorem Lod.nodeMarked_each (f : W → W) (k : Kind) (l : Lod W) :
    (l.map f).nodeMarked k = (l.nodeMarked k).map (Marked.each f) := by
  unfold Lod.nodeMarked
  conv_rhs => rw [List.map_append, map_free_each, List.map_append, List.map_append, ← opt_each]
  congr 1
  split
  · rw [List.map_cons, List.map_flatMap]
    show _ :: (l.rigs.map _).flatMap _ = _
    rw [List.flatMap_map]
    congr 1
    exact List.flatMap_congr fun r _ => r.marked_each f
  · rw [List.map_cons, map_free_each]
    show _ :: ((l.nodes.map _).flatMap _).map _ = _
    rw [List.flatMap_map, List.map_flatMap (f := Item.each f)]
    rfl

theorem Mat.marked_each (f : W → W) (a : Mat W) : (a.map f).marked = a.marked.map (Marked.each f) := by
  unfold Mat.marked
  simp only [List.map_append, map_free_each, ← opt_each]
  have e1 : (optItems (fun a => [Item.long a]) a.alphamode).map (Item.each f) =
      optItems (fun a => [Item.long a]) a.alphamode := by cases a.alphamode <;> rfl
  have e2 : (a.maps.map Item.text).map (Item.each f) = a.maps.map Item.text := by
    rw [List.map_map]; rfl
  rw [e1, e2]
  rfl

theorem Lod.matMarked_each (f : W → W) (l : Lod W) : (l.map f).matMarked = l.matMarked.map (Marked.each f) := by
  unfold Lod.matMarked
  rw [List.map_cons, List.map_flatMap]
  show _ :: (l.materials.map _).flatMap _ = _
  rw [List.flatMap_map]
  congr 1
  exact List.flatMap_congr fun a _ => a.marked_each f

theorem Mesh.marked_each (f : W → W) (m : Mesh W) : (m.map f).marked = m.marked.map (Marked.each f) := by
  have e1 : ((m.map f).geoms.flatMap fun g => g.lods.flatMap (Lod.nodeMarked m.kind)) =
      (m.geoms.flatMap fun g => g.lods.flatMap (Lod.nodeMarked m.kind)).map (Marked.each f) := by
    show (m.geoms.map _).flatMap _ = _
    rw [List.flatMap_map, List.map_flatMap]
    refine List.flatMap_congr fun g _ => ?_
    show (g.lods.map _).flatMap _ = _
    rw [List.flatMap_map, List.map_flatMap]
    exact List.flatMap_congr fun l _ => l.nodeMarked_each f m.kind
  have e2 : ((m.map f).geoms.flatMap fun g => g.lods.flatMap Lod.matMarked) =
      (m.geoms.flatMap fun g => g.lods.flatMap Lod.matMarked).map (Marked.each f) := by
    show (m.geoms.map _).flatMap _ = _
    rw [List.flatMap_map, List.map_flatMap]
    refine List.flatMap_congr fun g _ => ?_
    show (g.lods.map _).flatMap _ = _
    rw [List.flatMap_map, List.map_flatMap]
    exact List.flatMap_congr fun l _ => l.matMarked_each f
  have e3 : ((m.map f).geoms.map fun g => fixed (.long g.lodnum)) =
      (m.geoms.map fun g => fixed (.long g.lodnum)).map (Marked.each f) := by
    show (m.geoms.map _).map _ = _
    rw [List.map_map, List.map_map]
    rfl
  have e4 : m.vattrs.flatMap VAttr.marked = (m.vattrs.flatMap VAttr.marked).map (Marked.each f) := by
    rw [List.map_flatMap]
    rfl
  have e5 : ((m.map f).vertices.map Item.word).map free =
      ((m.vertices.map Item.word).map free).map (Marked.each f) := by
    show (((m.vertices.map f).map _).map _) = _
    simp only [List.map_map]
    rfl
  have e6 : (m.index.elems.map Item.short).map free =
      ((m.index.elems.map Item.short).map free).map (Marked.each f) := by
    simp only [List.map_map]
    rfl
  have e7 : (if m.kind.isSkinned then [] else [free (.long m.u2)]) =
      (if m.kind.isSkinned then [] else [free (.long m.u2)]).map (Marked.each f) := by split <;> rfl
  unfold Mesh.marked
  simp only [List.map_append]
  rw [← e1, ← e2, ← e3, ← e4, ← e5, ← e6, ← e7]
  rfl

theorem mask_of_marks (pl : Plat) (m : Mesh W) : m.marked.flatMap (Marked.mask pl) = m.freeMask pl := by
  unfold Mesh.freeMask
  rw [Mesh.marked_each, List.flatMap_map]
  exact List.flatMap_congr fun p _ => (p.mask_each _).symm

/-! ## One item -/

theorem bytes_inj {x y : Item} (hx : x.Fits pl) (hy : y.Fits pl) (h : x.blank = y.blank)
    (e : x.bytes pl = y.bytes pl) : x = y := by
  cases y with
  | long v =>
    obtain ⟨w, rfl⟩ := blank_long.1 h
    have h1 := (readLong_parses (pl := pl) (layout pl [.long w] ++ []) w []).2 ⟨w, trivial, by simpa using hx, rfl, rfl⟩
    have h2 := (readLong_parses (pl := pl) (layout pl [.long v] ++ []) v []).2 ⟨v, trivial, by simpa using hy, rfl, rfl⟩
    simp only [layout, List.flatMap_cons, List.flatMap_nil] at h1 h2
    rw [e, h2] at h1
    simp only [Except.ok.injEq, Prod.mk.injEq] at h1
    rw [h1.1]
  | short v =>
    obtain ⟨w, rfl⟩ := blank_short.1 h
    have P := Parses.of_inverts (readShort1_inv pl) writeShort_writes
    have h1 := (P (layout pl [.short w] ++ []) w []).2 ⟨w, trivial, by simpa using hx, rfl, rfl⟩
    have h2 := (P (layout pl [.short v] ++ []) v []).2 ⟨v, trivial, by simpa using hy, rfl, rfl⟩
    simp only [layout, List.flatMap_cons, List.flatMap_nil] at h1 h2
    rw [e, h2] at h1
    simp only [Except.ok.injEq, Prod.mk.injEq] at h1
    rw [h1.1]
  | sshort v =>
    obtain ⟨w, rfl⟩ := blank_sshort.1 h
    have h1 := (readSShort_parses (pl := pl) (layout pl [.sshort w] ++ []) w []).2 ⟨w, trivial, by simpa using hx, rfl, rfl⟩
    have h2 := (readSShort_parses (pl := pl) (layout pl [.sshort v] ++ []) v []).2 ⟨v, trivial, by simpa using hy, rfl, rfl⟩
    simp only [layout, List.flatMap_cons, List.flatMap_nil] at h1 h2
    rw [e, h2] at h1
    simp only [Except.ok.injEq, Prod.mk.injEq] at h1
    rw [h1.1]
  | byte v =>
    obtain ⟨w, rfl⟩ := blank_byte.1 h
    have h1 := (readByte_parses (pl := pl) (layout pl [.byte w] ++ []) w []).2 ⟨w, trivial, by simpa using hx, rfl, rfl⟩
    have h2 := (readByte_parses (pl := pl) (layout pl [.byte v] ++ []) v []).2 ⟨v, trivial, by simpa using hy, rfl, rfl⟩
    simp only [layout, List.flatMap_cons, List.flatMap_nil] at h1 h2
    rw [e, h2] at h1
    simp only [Except.ok.injEq, Prod.mk.injEq] at h1
    rw [h1.1]
  | word v =>
    obtain ⟨w, rfl⟩ := blank_word.1 h
    have h1 := (readFloat1_parses (F := W) (pl := pl) (layout pl [.word w] ++ []) _ []).2 ⟨w, trivial, by simpa using hx, rfl, rfl⟩
    have h2 := (readFloat1_parses (F := W) (pl := pl) (layout pl [.word v] ++ []) _ []).2 ⟨v, trivial, by simpa using hy, rfl, rfl⟩
    simp only [layout, List.flatMap_cons, List.flatMap_nil] at h1 h2
    rw [e, h2] at h1
    simp only [Except.ok.injEq, Prod.mk.injEq] at h1
    exact congrArg _ h1.1.symm
  | text s =>
    obtain ⟨t, rfl, ht⟩ := blank_text.1 h
    have e : longBytes pl t.length ++ t = longBytes pl s.length ++ s := e
    rw [ht] at e
    rw [List.append_cancel_left e]

theorem Swap.blank {p : Marked} {y : Item} (h : Swap p y) : y.blank = p.2.blank := by
  unfold Swap at h
  split at h
  · exact h
  · rw [h]

theorem blank_length {x y : Item} (h : y.blank = x.blank) : (y.bytes pl).length = (x.bytes pl).length := by
  have h1 := mask_length (pl := pl) (true, x)
  have h2 := (swap_bytes (pl := pl) (p := (true, x)) (y := y) h).right
  rw [h1, h2]

theorem blanks_length {xs ys : List Item} (h : List.Forall₂ (fun x y => y.blank = x.blank) xs ys) :
    (layout pl ys).length = (layout pl xs).length := by
  induction h with
  | nil => rfl
  | cons h1 _ ih =>
    rw [layout_cons, layout_cons, List.length_append, List.length_append, ih, blank_length h1]

theorem layout_at {xs : List Item} {i : Nat} {x : Item} (h : xs[i]? = some x) :
    ((layout pl xs).drop (layout pl (xs.take i)).length).take (x.bytes pl).length = x.bytes pl := by
  obtain ⟨hlt, rfl⟩ := List.getElem?_eq_some_iff.1 h
  have e : xs = xs.take i ++ xs[i] :: xs.drop (i + 1) := by simp
  have e' : layout pl xs = layout pl (xs.take i) ++ (xs[i].bytes pl ++ layout pl (xs.drop (i + 1))) := by
    conv_lhs => rw [e]
    rw [layout_append, layout_cons]
  rw [e', List.drop_left' rfl, List.take_left' rfl]

/-! ## Floats of the vertex block -/

theorem SameOutside.no_mark {k : List Bool} {a b : Bytes} (h : SameOutside k a b) (hk : ∀ c ∈ k, c = false) :
    b = a := by
  refine List.ext_getElem? fun p => (h.same p fun hp => ?_).symm
  have := hk _ (List.mem_of_getElem? hp)
  simp at this

theorem words_of_slots {slot : Nat → Bool} : ∀ (n : Nat) {v : List W} {c : Bytes},
    SameOutside ((List.range' n v.length).flatMap fun i => List.replicate 4 (slot i)) (layout pl (v.map .word)) c →
    ∃ v' : List W, c = layout pl (v'.map .word) ∧ v'.length = v.length ∧
      ∀ i, slot (n + i) = false → v'[i]? = v[i]?
  | n, [], c, h => by
    have : c = [] := List.length_eq_zero_iff.1 h.right
    exact ⟨[], this, rfl, fun _ _ => rfl⟩
  | n, w :: v, c, h => by
    rw [List.length_cons, List.range'_succ, List.flatMap_cons, List.map_cons, layout_cons] at h
    obtain ⟨c1, c2, rfl, h1, h2⟩ := h.split (by rw [List.length_replicate]; exact intBytes_length _ _ _)
    obtain ⟨v', rfl, hl, hv⟩ := words_of_slots (n + 1) h2
    obtain ⟨y, e1, -, rfl⟩ := swap_of_bytes (pl := pl) (p := (slot n, .word w)) trivial h1
    obtain ⟨w', rfl⟩ := blank_word.1 e1.blank
    refine ⟨w' :: v', rfl, by simp [hl], fun i hi => ?_⟩
    cases i with
    | zero =>
      rw [Nat.add_zero] at hi
      rw [hi] at e1
      have : Item.word w' = Item.word w := e1
      rw [Item.word.injEq] at this
      simp [this]
    | succ i =>
      rw [List.getElem?_cons_succ, List.getElem?_cons_succ]
      exact hv i (by rw [Nat.add_assoc, Nat.add_comm 1]; exact hi)

theorem no_box (pl : Plat) (m : Mesh F) : ∀ c ∈ m.geoms.flatMap (fun g => g.lods.flatMap (Lod.nodeMask pl m.kind false)) ++
    m.geoms.flatMap (fun g => g.lods.flatMap (Lod.matMask pl m.kind m.head.version false)), c = false := by
  intro c hc
  simp only [Lod.nodeMask, Lod.matMask, Mat.mask, List.mem_append, List.mem_flatMap, List.mem_replicate] at hc
  rcases hc with ⟨_, _, _, _, h | h⟩ | ⟨_, _, _, _, h | ⟨_, _, h | h⟩⟩ <;> exact h.2

end Bf2
