import Verif.ColSpec
import Verif.LayoutLemmas
import Verif.FormatLemmas

/-! # Reading and writing collision meshes -/

namespace Bf2

/-- The reader `p` accepts exactly the layouts of the contents satisfying `V`, followed by anything, and
returns the content as `emb` makes it. -/
def Parses {α X : Type} (pl : Plat) (p : P α) (items : X → List Item) (V : X → Prop) (emb : X → α) :
    Prop :=
  ∀ s a r, p s = .ok (a, r) ↔
    ∃ x, V x ∧ (∀ i ∈ items x, i.Fits pl) ∧ s = layout pl (items x) ++ r ∧ a = emb x

namespace Parses
variable {α β X Y : Type} {pl : Plat}

theorem congr {p : P α} {i j : X → List Item} {V V' : X → Prop} {e : X → α}
    (h : Parses pl p i V e) (hi : ∀ x, V x → i x = j x) (hV : ∀ x, V x ↔ V' x) :
    Parses pl p j V' e := by
  intro s a r
  rw [h]
  constructor
  · rintro ⟨x, h1, h2, h3, h4⟩
    rw [hi x h1] at h2 h3
    exact ⟨x, (hV x).1 h1, h2, h3, h4⟩
  · rintro ⟨x, h1, h2, h3, h4⟩
    have h1 := (hV x).2 h1
    rw [← hi x h1] at h2 h3
    exact ⟨x, h1, h2, h3, h4⟩

theorem pure {x0 : X} {e : X → α} {a : α} (h : a = e x0) :
    Parses pl (pure a) (fun _ => []) (· = x0) e := by
  intro s b r
  rw [P.pure_ok]
  constructor
  · rintro ⟨rfl, rfl⟩
    exact ⟨x0, rfl, by simp, by simp [layout_nil], h⟩
  · rintro ⟨x, rfl, -, h3, rfl⟩
    exact ⟨h, by simpa [layout_nil] using h3⟩

/-- The first part of the content `y` of the whole is `g y`. -/
theorem bind {p : P α} {f : α → P β} {i : X → List Item} {V : X → Prop} {e : X → α}
    {j : X → Y → List Item} {U : X → Y → Prop} {e' : Y → β} (g : Y → X)
    (hp : Parses pl p i V e) (hf : ∀ x, Parses pl (f (e x)) (j x) (U x) e')
    (hg : ∀ x y, U x y → g y = x) :
    Parses pl (p >>= f) (fun y => i (g y) ++ j (g y) y) (fun y => V (g y) ∧ U (g y) y) e' := by
  intro s b r
  rw [P.bind_ok]
  constructor
  · rintro ⟨a, s', h1, h2⟩
    obtain ⟨x, hv, hfit, rfl, rfl⟩ := (hp _ _ _).1 h1
    obtain ⟨y, hu, hfit', rfl, rfl⟩ := (hf _ _ _ _).1 h2
    obtain rfl := hg _ _ hu
    exact ⟨y, ⟨hv, hu⟩, fun t ht => (List.mem_append.1 ht).elim (hfit t) (hfit' t),
      by rw [layout_append, List.append_assoc], rfl⟩
  · rintro ⟨y, ⟨hv, hu⟩, hfit, rfl, rfl⟩
    exact ⟨_, _, (hp _ _ _).2 ⟨g y, hv, fun t ht => hfit t (List.mem_append_left _ ht),
        by rw [layout_append, List.append_assoc], rfl⟩,
      (hf _ _ _ _).2 ⟨y, hu, fun t ht => hfit t (List.mem_append_right _ ht), rfl, rfl⟩⟩

theorem rep {p : P α} {i : X → List Item} {V : X → Prop} {e : X → α} (h : Parses pl p i V e)
    (n : Nat) : Parses pl (P.rep p n) (fun l : List X => l.flatMap i)
      (fun l => l.length = n ∧ ∀ x ∈ l, V x) (List.map e) := by
  induction n with
  | zero =>
    have h0 : Parses pl (Pure.pure []) (fun _ => []) (· = []) (List.map e) := Parses.pure rfl
    refine h0.congr ?_ ?_
    · rintro _ rfl; rfl
    · intro l; simp +contextual [List.length_eq_zero_iff]
  | succ n ih =>
    intro s a r
    simp only [P.rep, P.bind_ok, P.pure_ok]
    constructor
    · rintro ⟨a, s1, h1, l, s2, h2, rfl, rfl⟩
      obtain ⟨x, hv, hfit, rfl, rfl⟩ := (h _ _ _).1 h1
      obtain ⟨y, hu, hfit', rfl, rfl⟩ := (ih _ _ _).1 h2
      refine ⟨x :: y, ⟨by simp [hu.1], by simpa using ⟨hv, hu.2⟩⟩, ?_, ?_, rfl⟩
      · intro t ht
        simp only [List.flatMap_cons, List.mem_append] at ht
        exact ht.elim (hfit t) (hfit' t)
      · rw [List.flatMap_cons, layout_append, List.append_assoc]
    · rintro ⟨l, ⟨hl, hv⟩, hfit, rfl, rfl⟩
      match l, hl with
      | x :: l, hl =>
        rw [List.flatMap_cons] at hfit
        exact ⟨_, _, (h _ _ _).2 ⟨x, hv x (by simp), fun t ht => hfit t (List.mem_append_left _ ht),
          by rw [List.flatMap_cons, layout_append, List.append_assoc], rfl⟩, _, _,
          (ih _ _ _).2 ⟨l, ⟨by simpa using hl, fun y hy => hv y (by simp [hy])⟩,
            fun t ht => hfit t (List.mem_append_right _ ht), rfl, rfl⟩, rfl, rfl⟩

/-- From a reader and a writer that invert each other. -/
theorem of_inverts {p : P X} {w : X → Out} {i : X → List Item} (h : Inverts p w (fun _ => True))
    (hw : ∀ x, Writes pl (w x) (i x)) : Parses pl p i (fun _ => True) id := by
  intro s a r
  constructor
  · intro hs
    obtain ⟨-, bs, hb, rfl⟩ := h.sound hs
    obtain ⟨h1, rfl⟩ := (hw _ _).1 hb
    exact ⟨a, trivial, h1, rfl, rfl⟩
  · rintro ⟨x, -, h1, rfl, rfl⟩
    exact h.complete r trivial ((hw _ _).2 ⟨h1, rfl⟩)

/-- The result of the reader is changed. -/
theorem emb_map {p : P α} {i : X → List Item} {V : X → Prop} {e : X → α} (h : Parses pl p i V e)
    (f : α → β) : Parses pl (f <$> p) i V (f ∘ e) := by
  intro s b r
  rw [P.map_ok]
  constructor
  · rintro ⟨a, h1, rfl⟩
    obtain ⟨x, h2, h3, h4, rfl⟩ := (h _ _ _).1 h1
    exact ⟨x, h2, h3, h4, rfl⟩
  · rintro ⟨x, h2, h3, h4, rfl⟩
    exact ⟨_, (h _ _ _).2 ⟨x, h2, h3, h4, rfl⟩, rfl⟩

end Parses

variable {pl : Plat}

theorem flatMap_one {α β : Type} (f : α → β) (l : List α) : l.flatMap (fun a => [f a]) = l.map f := by
  induction l <;> simp_all

/-! ## Primitives -/

theorem readSShort_inv (pl : Plat) : Inverts (readSShort pl) (writeSShort pl) (fun _ => True) where
  sound {s a r} h := by
    simp only [readSShort, P.bind_ok, P.pure_ok, readBytes_ok] at h
    obtain ⟨bs, s', ⟨hl, rfl⟩, rfl, rfl⟩ := h
    obtain ⟨h1, h2⟩ := toSigned_fits (.inr (.inl rfl)) (pl.dec_lt hl)
    refine ⟨trivial, bs, ?_, rfl⟩
    simp [writeSShort, h1, h2, pl.enc_dec hl, Out.write]
  complete {a bs} r _ h := by
    unfold writeSShort at h
    split at h
    · next hf =>
      obtain ⟨h1, h2⟩ := fits_toSigned (.inr (.inl rfl)) hf
      rw [Out.write_ok] at h
      subst h
      simp only [readSShort, P.bind_ok, P.pure_ok, readBytes_ok]
      exact ⟨_, _, ⟨by simp, rfl⟩, by rw [pl.dec_enc _ _ h1, h2], rfl⟩
    · exact absurd h Out.raise_ok

theorem writeSShort_writes (v : Int) : Writes pl (writeSShort pl v) [.sshort v] := by
  intro bs
  have h1 : fitsSigned 2 v = true ↔ -32768 ≤ v ∧ v ≤ 32767 := by
    unfold fitsSigned
    simp only [Bool.and_eq_true, decide_eq_true_eq]
    norm_num; omega
  have h2 : pl.enc 2 (ofSigned 2 v) = intBytes pl.bigEndian 2 v := by
    rw [ofSigned_eq, pl.enc_eq]
  simp only [List.mem_singleton, forall_eq, Item.Fits, layout_cons, layout_nil, Item.bytes,
    List.append_nil]
  unfold writeSShort
  rw [h2]
  split
  · next h => rw [Out.write_ok]; exact ⟨fun e => ⟨h1.1 h, e⟩, fun e => e.2⟩
  · next h => exact ⟨fun e => absurd e Out.raise_ok, fun e => absurd (h1.2 e.1) h⟩

theorem readLong_parses : Parses pl (readLong pl) (fun v => [.long v]) (fun _ => True) id :=
  .of_inverts (readLong_inv pl) writeLong_writes
theorem readSShort_parses : Parses pl (readSShort pl) (fun v => [.sshort v]) (fun _ => True) id :=
  .of_inverts (readSShort_inv pl) writeSShort_writes
theorem readByte_parses : Parses pl readByte (fun v => [.byte v]) (fun _ => True) id :=
  .of_inverts readByte_inv writeByte_writes

section
variable {F : Type} [FCodec F]

theorem readFloat1_parses : Parses pl (readFloat1 (F := F) pl) (fun w => [.word w]) (fun _ => True)
    FCodec.unpack := by
  rw [readFloat1_map]
  exact (Parses.of_inverts (readFloat1_inv pl) writeFloat_writes).emb_map _
theorem readFloat3_parses : Parses pl (readFloat3 (F := F) pl) Vec3.items (fun _ => True)
    (Vec3.map FCodec.unpack) := by
  rw [readFloat3_map]
  exact (Parses.of_inverts (readFloat3_inv pl) writeFloat3_writes).emb_map _

theorem readFace_parses : Parses pl (readFace pl) FileFace.items (fun _ => True) FileFace.obj := by
  unfold readFace
  refine Parses.congr (Parses.bind FileFace.v1 readSShort_parses (fun v1 =>
    Parses.bind FileFace.v2 readSShort_parses (fun v2 =>
    Parses.bind FileFace.v3 readSShort_parses (fun v3 =>
    Parses.bind FileFace.material readSShort_parses (fun m =>
    Parses.pure (x0 := ⟨v1, v2, v3, m⟩) rfl) ?_) ?_) ?_) ?_) (fun _ _ => rfl) ?_
  · rintro x y rfl; rfl
  · rintro x y ⟨-, h⟩; rw [h]
  · rintro x y ⟨-, -, h⟩; rw [h]
  · rintro x y ⟨-, -, -, h⟩; rw [h]
  · intro x; simp

theorem readY_parses : Parses pl (readY (F := F) pl) ColY.items (fun _ => True)
    (ColY.map FCodec.unpack) := by
  unfold readY
  refine Parses.congr (Parses.bind ColY.u1 readFloat1_parses (fun u1 =>
    Parses.bind ColY.u2 readSShort_parses (fun u2 =>
    Parses.bind ColY.u3 readSShort_parses (fun u3 =>
    Parses.bind ColY.u4 readLong_parses (fun u4 =>
    Parses.bind ColY.u5 readLong_parses (fun u5 =>
    Parses.pure (x0 := ⟨u1, u2, u3, u4, u5⟩) rfl) ?_) ?_) ?_) ?_) ?_) (fun _ _ => rfl) ?_
  · rintro x y rfl; rfl
  · rintro x y ⟨-, h⟩; rw [h]
  · rintro x y ⟨-, -, h⟩; rw [h]
  · rintro x y ⟨-, -, -, h⟩; rw [h]
  · rintro x y ⟨-, -, -, -, h⟩; rw [h]
  · intro x; simp

theorem readCounted_parses {α X : Type} {p : P α} {i : X → List Item} {V : X → Prop} {e : X → α}
    (h : Parses pl p i V e) : Parses pl (readCounted pl p)
      (fun x : Int × List X => .long x.1 :: x.2.flatMap i)
      (fun x => x.2.length = x.1.toNat ∧ ∀ y ∈ x.2, V y) (fun x => (x.1, x.2.map e)) := by
  unfold readCounted
  refine Parses.congr (Parses.bind Prod.fst readLong_parses (fun n =>
    Parses.bind Prod.snd (h.rep _) (fun l =>
    Parses.pure (x0 := (n, l)) rfl) ?_) ?_) ?_ ?_
  all_goals simp +contextual [Prod.ext_iff]

theorem readColtype_parses : Parses pl (readColtype pl) (fun v => [.long v])
    (fun v => 0 ≤ v ∧ v ≤ 4) id := by
  intro s a r
  unfold readColtype
  rw [P.bind_ok]
  constructor
  · rintro ⟨t, s', h1, h2⟩
    obtain ⟨x, -, h3, h4, hx⟩ := (readLong_parses _ _ _).1 h1
    obtain rfl : t = x := hx
    split at h2
    · next ht =>
      obtain ⟨rfl, rfl⟩ := P.pure_ok.1 h2
      exact ⟨t, ht, h3, h4, rfl⟩
    · cases h2
  · rintro ⟨x, h1, h2, h3, hx⟩
    obtain rfl : a = x := hx
    exact ⟨a, r, (readLong_parses _ _ _).2 ⟨a, trivial, h2, h3, rfl⟩, by rw [if_pos h1]; rfl⟩

theorem readLodType_parses (v : Int) : Parses pl (readLodType pl v)
    (fun t => if 9 ≤ v then [.long t] else [])
    (fun t => if 9 ≤ v then 0 ≤ t ∧ t ≤ 4 else t = 0) id := by
  unfold readLodType
  by_cases h : 9 ≤ v
  · simp only [if_pos h]; exact readColtype_parses
  · simp only [if_neg h]; exact Parses.pure rfl

theorem readAdata_parses (v : Int) : Parses pl (readAdata pl v)
    (fun x : Int × List Int => if 10 ≤ v then .long x.1 :: x.2.map .long else [])
    (fun x => if 10 ≤ v then x.2.length = x.1.toNat else x.1 = 0 ∧ x.2 = []) id := by
  unfold readAdata
  by_cases h : 10 ≤ v
  · simp only [if_pos h]
    have := (readCounted_parses (pl := pl) readLong_parses).congr
      (j := fun x : Int × List Int => .long x.1 :: x.2.map .long)
      (V' := fun x => x.2.length = x.1.toNat) (fun x _ => by simp [flatMap_one])
      (fun x => by simp)
    have he : (fun x : Int × List Int => (x.1, x.2.map id)) = id := by funext x; simp
    rwa [he] at this
  · simp only [if_neg h]
    have h0 : Parses pl (Pure.pure ((0 : Int), ([] : List Int))) (fun _ => []) (· = (0, [])) id :=
      Parses.pure rfl
    exact h0.congr (fun _ _ => rfl) (fun x => by simp [Prod.ext_iff])

theorem readVertices_parses : Parses pl (readVertices (F := F) pl)
    (fun x : Int × List (Vec3 W) × List Int =>
      .long x.1 :: (x.2.1.flatMap Vec3.items ++ x.2.2.map .sshort))
    (fun x => x.2.1.length = x.1.toNat ∧ x.2.2.length = x.1.toNat)
    (fun x => (x.1, x.2.1.map (Vec3.map FCodec.unpack), x.2.2)) := by
  unfold readVertices
  refine Parses.congr (Parses.bind (fun x => x.1) readLong_parses (fun n =>
    Parses.bind (fun x => x.2.1) (readFloat3_parses.rep _) (fun vs =>
    Parses.bind (fun x => x.2.2) (readSShort_parses.rep _) (fun ids =>
    Parses.pure (x0 := (n, vs, ids)) (by simp)) ?_) ?_) ?_) ?_ ?_
  · rintro x y rfl; rfl
  · rintro x y ⟨-, h⟩; rw [h]
  · rintro x y ⟨-, -, h⟩; rw [h]
  · rintro x -; simp [flatMap_one]
  · rintro x; simp

theorem readBounds_parses : Parses pl (readBounds (F := F) pl)
    (fun x : Vec3 W × Vec3 W × Int × Vec3 W × Vec3 W =>
      x.1.items ++ x.2.1.items ++ [.byte x.2.2.1] ++ x.2.2.2.1.items ++ x.2.2.2.2.items)
    (fun _ => True)
    (fun x => (x.1.map FCodec.unpack, x.2.1.map FCodec.unpack, x.2.2.1,
      x.2.2.2.1.map FCodec.unpack, x.2.2.2.2.map FCodec.unpack)) := by
  unfold readBounds
  refine Parses.congr (Parses.bind (fun x => x.1) readFloat3_parses (fun a =>
    Parses.bind (fun x => x.2.1) readFloat3_parses (fun b =>
    Parses.bind (fun x => x.2.2.1) readByte_parses (fun c =>
    Parses.bind (fun x => x.2.2.2.1) readFloat3_parses (fun d =>
    Parses.bind (fun x => x.2.2.2.2) readFloat3_parses (fun e =>
    Parses.pure (x0 := (a, b, c, d, e)) rfl) ?_) ?_) ?_) ?_) ?_) ?_ ?_
  · rintro x y rfl; rfl
  · rintro x y ⟨-, h⟩; rw [h]
  · rintro x y ⟨-, -, h⟩; rw [h]
  · rintro x y ⟨-, -, -, h⟩; rw [h]
  · rintro x y ⟨-, -, -, -, h⟩; rw [h]
  · rintro x -; simp
  · rintro x; simp

theorem readLod_parses (v : Int) : Parses pl (readLod (F := F) pl v) (ColLod.items v) (ColLodWF v)
    (ColLod.map FCodec.unpack FileFace.obj) := by
  unfold readLod
  refine Parses.congr (Parses.bind (fun l => l.coltype) (readLodType_parses v) (fun t =>
    Parses.bind (fun l => (l.facenum, l.faces)) (readCounted_parses readFace_parses) (fun f =>
    Parses.bind (fun l => (l.vertnum, l.vertices, l.vertids)) readVertices_parses (fun w =>
    Parses.bind (fun l => (l.min, l.max, l.u7, l.bmin, l.bmax)) readBounds_parses (fun b =>
    Parses.bind (fun l => (l.ynum, l.ydata)) (readCounted_parses readY_parses) (fun y =>
    Parses.bind (fun l => (l.znum, l.zdata)) (readCounted_parses readSShort_parses) (fun z =>
    Parses.bind (fun l => (l.anum, l.adata)) (readAdata_parses v) (fun a =>
    Parses.pure (x0 := ⟨t, f.1, f.2, w.1, w.2.1, w.2.2, b.1, b.2.1, b.2.2.1, b.2.2.2.1, b.2.2.2.2,
      y.1, y.2, z.1, z.2, a.1, a.2⟩) (by simp [ColLod.map])) ?_) ?_) ?_) ?_) ?_) ?_) ?_) ?_ ?_
  · rintro x y rfl; rfl
  · rintro x y ⟨-, h⟩; rw [h]
  · rintro x y ⟨-, -, h⟩; rw [h]
  · rintro x y ⟨-, -, -, h⟩; rw [h]
  · rintro x y ⟨-, -, -, -, h⟩; rw [h]
  · rintro x y ⟨-, -, -, -, -, h⟩; rw [h]
  · rintro x y ⟨-, -, -, -, -, -, h⟩; rw [h]
  · rintro x -; simp [ColLod.items, flatMap_one]
  · rintro x
    constructor
    · rintro ⟨h1, h2, h3, -, h5, h6, h7, -⟩
      exact ⟨h1, h2.1, h3.1, h3.2, h5.1, h6.1, h7⟩
    · rintro ⟨h1, h2, h3, h4, h5, h6, h7⟩
      exact ⟨h1, ⟨h2, fun _ _ => trivial⟩, ⟨h3, h4⟩, trivial, ⟨h5, fun _ _ => trivial⟩,
        ⟨h6, fun _ _ => trivial⟩, h7, rfl⟩

theorem readSub_parses (v : Int) : Parses pl (readSub (F := F) pl v) (ColSub.items v) (ColSubWF v)
    (ColSub.map FCodec.unpack FileFace.obj) := by
  unfold readSub
  refine Parses.congr (Parses.bind (fun x => x.lodnum) readLong_parses (fun n =>
    Parses.bind (fun x => x.lods) ((readLod_parses v).rep _) (fun l =>
    Parses.pure (x0 := ⟨n, l⟩) rfl) ?_) ?_) ?_ ?_
  · rintro x y rfl; rfl
  · rintro x y ⟨-, h⟩; rw [h]
  · rintro x -; simp [ColSub.items]
  · rintro x
    exact ⟨fun h => ⟨h.2.1.1, h.2.1.2⟩, fun h => ⟨trivial, ⟨h.1, h.2⟩, rfl⟩⟩

theorem readGeom_parses (v : Int) : Parses pl (readGeom (F := F) pl v) (ColGeom.items v)
    (ColGeomWF v) (ColGeom.map FCodec.unpack FileFace.obj) := by
  unfold readGeom
  refine Parses.congr (Parses.bind (fun x => x.subgeomnum) readLong_parses (fun n =>
    Parses.bind (fun x => x.subgeoms) ((readSub_parses v).rep _) (fun l =>
    Parses.pure (x0 := ⟨n, l⟩) rfl) ?_) ?_) ?_ ?_
  · rintro x y rfl; rfl
  · rintro x y ⟨-, h⟩; rw [h]
  · rintro x -; simp [ColGeom.items]
  · rintro x
    exact ⟨fun h => ⟨h.2.1.1, h.2.1.2⟩, fun h => ⟨trivial, ⟨h.1, h.2⟩, rfl⟩⟩

theorem readCol_parses : Parses pl (readCol (F := F) pl) ColMesh.items ColWF
    (ColMesh.map FCodec.unpack FileFace.obj) := by
  unfold readCol
  refine Parses.congr (Parses.bind (fun x => x.u1) readLong_parses (fun u1 =>
    Parses.bind (fun x => x.version) readLong_parses (fun v =>
    Parses.bind (fun x => x.geomnum) readLong_parses (fun n =>
    Parses.bind (fun x => x.geoms) ((readGeom_parses v).rep _) (fun l =>
    Parses.pure (x0 := ⟨u1, v, n, l⟩) rfl) ?_) ?_) ?_) ?_) ?_ ?_
  · rintro x y rfl; rfl
  · rintro x y ⟨-, h⟩; rw [h]
  · rintro x y ⟨-, -, h⟩; rw [h]
  · rintro x y ⟨-, -, -, h⟩; rw [h]
  · rintro x -; simp [ColMesh.items]
  · rintro x
    exact ⟨fun h => ⟨h.2.2.2.1.1, h.2.2.2.1.2⟩,
      fun h => ⟨trivial, trivial, trivial, ⟨h.1, h.2⟩, rfl⟩⟩

/-! ## Writers -/

theorem writeFloat_writes' (x : F) : Writes pl (writeFloat pl x) [.word (FCodec.pack x)] :=
  writeFloat_writes (FCodec.pack x)

theorem writeFloat3_writes' (v : Vec3 F) :
    Writes pl (writeFloat3 pl v) (v.map FCodec.pack).items :=
  writeFloat3_writes (v.map FCodec.pack)

theorem writeFace_writes (f : ColFace) : Writes pl (writeFace pl f) f.stored.items :=
  .all_cons (writeSShort_writes _) <| .all_cons (writeSShort_writes _) <|
    .all_cons (writeSShort_writes _) <| .all_cons (writeSShort_writes _) .all_nil

theorem writeY_writes (y : ColY F) : Writes pl (writeY pl y) (y.map FCodec.pack).items :=
  .all_cons (writeFloat_writes' _) <| .all_cons (writeSShort_writes _) <|
    .all_cons (writeSShort_writes _) <| .all_cons (writeLong_writes _) <|
    .all_cons (writeLong_writes _) .all_nil

theorem writeLod_writes (v : Int) (l : ColLod F ColFace) :
    Writes pl (writeLod pl v l) ((l.map FCodec.pack ColFace.stored).items v) := by
  have h1 : Writes pl (if 9 ≤ v then writeLong pl l.coltype else .nil)
      (if 9 ≤ v then [.long l.coltype] else []) := by
    split
    · exact writeLong_writes _
    · exact .nil
  have h2 : Writes pl (.each (writeFace pl) l.faces)
      ((l.faces.map ColFace.stored).flatMap FileFace.items) := by
    rw [List.flatMap_map]; exact .each fun f _ => writeFace_writes f
  have h3 : Writes pl (.each (writeFloat3 pl) l.vertices)
      ((l.vertices.map (Vec3.map FCodec.pack)).flatMap Vec3.items) := by
    rw [List.flatMap_map]; exact .each fun f _ => writeFloat3_writes' f
  have h4 : Writes pl (.each (writeSShort pl) l.vertids) (l.vertids.map .sshort) :=
    .each_map writeSShort_writes
  have h5 : Writes pl (.each (writeY pl) l.ydata)
      ((l.ydata.map (ColY.map FCodec.pack)).flatMap ColY.items) := by
    rw [List.flatMap_map]; exact .each fun f _ => writeY_writes f
  have h6 : Writes pl (.each (writeSShort pl) l.zdata) (l.zdata.map .sshort) :=
    .each_map writeSShort_writes
  have h7 : Writes pl (if 10 ≤ v then .all [writeLong pl l.anum, .each (writeLong pl) l.adata]
      else .nil) (if 10 ≤ v then .long l.anum :: l.adata.map .long else []) := by
    split
    · have h8 : Writes pl (.each (writeLong pl) l.adata) (l.adata.map .long) :=
        .each_map writeLong_writes
      have key := Writes.all_cons (writeLong_writes (pl := pl) l.anum) (.all_cons h8 .all_nil)
      exact key.congr (by simp)
    · exact .nil
  have key := Writes.all_cons h1 <| .all_cons (writeLong_writes l.facenum) <| .all_cons h2 <|
    .all_cons (writeLong_writes l.vertnum) <| .all_cons h3 <| .all_cons h4 <|
    .all_cons (writeFloat3_writes' l.min) <| .all_cons (writeFloat3_writes' l.max) <|
    .all_cons (writeByte_writes l.u7) <| .all_cons (writeFloat3_writes' l.bmin) <|
    .all_cons (writeFloat3_writes' l.bmax) <| .all_cons (writeLong_writes l.ynum) <|
    .all_cons h5 <| .all_cons (writeLong_writes l.znum) <| .all_cons h6 <| .all_cons h7 .all_nil
  exact key.congr (by simp [ColLod.items, ColLod.map])

theorem writeSub_writes (v : Int) (s : ColSub F ColFace) :
    Writes pl (writeSub pl v s) ((s.map FCodec.pack ColFace.stored).items v) := by
  have h : Writes pl (.each (writeLod pl v) s.lods)
      ((s.lods.map (ColLod.map FCodec.pack ColFace.stored)).flatMap (ColLod.items v)) := by
    rw [List.flatMap_map]; exact .each fun f _ => writeLod_writes v f
  have key := Writes.all_cons (writeLong_writes (pl := pl) s.lodnum) (.all_cons h .all_nil)
  exact key.congr (by simp [ColSub.items, ColSub.map])

theorem writeGeom_writes (v : Int) (s : ColGeom F ColFace) :
    Writes pl (writeGeom pl v s) ((s.map FCodec.pack ColFace.stored).items v) := by
  have h : Writes pl (.each (writeSub pl v) s.subgeoms)
      ((s.subgeoms.map (ColSub.map FCodec.pack ColFace.stored)).flatMap (ColSub.items v)) := by
    rw [List.flatMap_map]; exact .each fun f _ => writeSub_writes v f
  have key := Writes.all_cons (writeLong_writes (pl := pl) s.subgeomnum) (.all_cons h .all_nil)
  exact key.congr (by simp [ColGeom.items, ColGeom.map])

theorem writeCol_writes (m : ColMesh F ColFace) :
    Writes pl (writeCol pl m) (m.map FCodec.pack ColFace.stored).items := by
  have h : Writes pl (.each (writeGeom pl m.version) m.geoms)
      ((m.geoms.map (ColGeom.map FCodec.pack ColFace.stored)).flatMap
        (ColGeom.items m.version)) := by
    rw [List.flatMap_map]; exact .each fun f _ => writeGeom_writes m.version f
  have key := Writes.all_cons (writeLong_writes (pl := pl) m.u1) <|
    .all_cons (writeLong_writes m.version) <| .all_cons (writeLong_writes m.geomnum) <|
    .all_cons h .all_nil
  exact key.congr (by simp [ColMesh.items, ColMesh.map])

end

/-! ## Replacing floats and faces -/

section
variable {F G H φ ψ χ : Type}

theorem ColLod.map_map (f : F → G) (g : φ → ψ) (f' : G → H) (g' : ψ → χ) (l : ColLod F φ) :
    (l.map f g).map f' g' = l.map (f' ∘ f) (g' ∘ g) := by
  simp only [ColLod.map, List.map_map]; rfl

theorem ColGeom.map_map (f : F → G) (g : φ → ψ) (f' : G → H) (g' : ψ → χ) (x : ColGeom F φ) :
    (x.map f g).map f' g' = x.map (f' ∘ f) (g' ∘ g) := by
  simp only [ColGeom.map, List.map_map]
  congr 1
  refine List.map_congr_left fun s _ => ?_
  simp only [Function.comp, ColSub.map, List.map_map]
  congr 1
  exact List.map_congr_left fun l _ => ColLod.map_map f g f' g' l

theorem ColMesh.map_map (f : F → G) (g : φ → ψ) (f' : G → H) (g' : ψ → χ) (m : ColMesh F φ) :
    (m.map f g).map f' g' = m.map (f' ∘ f) (g' ∘ g) := by
  simp only [ColMesh.map, List.map_map]
  congr 1
  exact List.map_congr_left fun x _ => ColGeom.map_map f g f' g' x

theorem ColWF.map {m : ColMesh F φ} (h : ColWF m) (f : F → G) (g : φ → ψ) : ColWF (m.map f g) where
  count := by simpa [ColMesh.map] using h.count
  geoms := by
    intro x hx
    simp only [ColMesh.map, List.mem_map] at hx
    obtain ⟨x, hx, rfl⟩ := hx
    refine ⟨by simpa [ColGeom.map] using (h.geoms x hx).count, fun s hs => ?_⟩
    simp only [ColGeom.map, List.mem_map] at hs
    obtain ⟨s, hs, rfl⟩ := hs
    have hw := (h.geoms x hx).subgeoms s hs
    refine ⟨by simpa [ColSub.map] using hw.count, fun l hl => ?_⟩
    simp only [ColSub.map, List.mem_map] at hl
    obtain ⟨l, hl, rfl⟩ := hl
    have w := hw.lods l hl
    exact ⟨w.1, by simpa [ColLod.map] using w.2, by simpa [ColLod.map] using w.3, w.4,
      by simpa [ColLod.map] using w.5, w.6, w.7⟩

theorem map_eq_self {α : Type} {f : α → α} {l : List α} : l.map f = l ↔ ∀ a ∈ l, f a = a := by
  induction l with
  | nil => simp
  | cons a l ih => simp [ih]

theorem Vec3.map_eq_self {f : F → F} {v : Vec3 F} : v.map f = v ↔ ∀ x ∈ v.floats, f x = x := by
  cases v; simp [Vec3.map, Vec3.floats]

theorem ColY.map_eq_self {f : F → F} {y : ColY F} : y.map f = y ↔ f y.u1 = y.u1 := by
  cases y; simp [ColY.map]

theorem ColLod.map_eq_self {f : F → F} {g : φ → φ} {l : ColLod F φ} :
    l.map f g = l ↔ (∀ x ∈ l.faces, g x = x) ∧ ∀ w ∈ l.floats, f w = w := by
  have e : l.map f g = l ↔ l.faces.map g = l.faces ∧ l.vertices.map (Vec3.map f) = l.vertices ∧
      l.min.map f = l.min ∧ l.max.map f = l.max ∧ l.bmin.map f = l.bmin ∧ l.bmax.map f = l.bmax ∧
      l.ydata.map (ColY.map f) = l.ydata := by
    cases l; simp [ColLod.map]
  rw [e]
  simp only [Bf2.map_eq_self, Vec3.map_eq_self, ColY.map_eq_self, ColLod.floats, List.mem_append,
    List.mem_flatMap, List.mem_map]
  constructor
  · rintro ⟨h1, h2, h3, h4, h5, h6, h7⟩
    refine ⟨h1, ?_⟩
    rintro w (((((⟨v, hv, hw⟩ | h) | h) | h) | h) | ⟨y, hy, rfl⟩)
    · exact h2 v hv w hw
    · exact h3 w h
    · exact h4 w h
    · exact h5 w h
    · exact h6 w h
    · exact h7 y hy
  · rintro ⟨h1, h2⟩
    exact ⟨h1, fun v hv w hw => h2 w (.inl (.inl (.inl (.inl (.inl ⟨v, hv, hw⟩))))), fun w hw => h2 w (by tauto),
      fun w hw => h2 w (by tauto), fun w hw => h2 w (by tauto), fun w hw => h2 w (by tauto),
      fun y hy => h2 _ (.inr ⟨y, hy, rfl⟩)⟩

theorem ColMesh.map_eq_self {f : F → F} {g : φ → φ} {m : ColMesh F φ} :
    m.map f g = m ↔ ∀ l ∈ m.lods, (∀ x ∈ l.faces, g x = x) ∧ ∀ w ∈ l.floats, f w = w := by
  have e1 : m.map f g = m ↔ m.geoms.map (ColGeom.map f g) = m.geoms := by
    cases m; simp [ColMesh.map]
  have e2 : ∀ x : ColGeom F φ, x.map f g = x ↔ x.subgeoms.map (ColSub.map f g) = x.subgeoms := by
    rintro ⟨⟩; simp [ColGeom.map]
  have e3 : ∀ x : ColSub F φ, x.map f g = x ↔ x.lods.map (ColLod.map f g) = x.lods := by
    rintro ⟨⟩; simp [ColSub.map]
  simp only [e1, e2, e3, Bf2.map_eq_self, ColLod.map_eq_self, ColMesh.lods, List.mem_flatMap]
  constructor
  · rintro h l ⟨x, hx, s, hs, hl⟩; exact h x hx s hs l hl
  · intro h x hx s hs l hl; exact h l ⟨x, hx, s, hs, hl⟩

end

/-! ## The number of bytes -/

theorem intBytes_length (b : Bool) (k : Nat) (v : Int) : (intBytes b k v).length = k := by
  unfold intBytes; cases b <;> simp

/-- As long as the other item, and in range if that is. -/
def Item.Like (pl : Plat) (i j : Item) : Prop :=
  (i.bytes pl).length = (j.bytes pl).length ∧ (i.Fits pl → j.Fits pl)

abbrev Alike (pl : Plat) : List Item → List Item → Prop := List.Forall₂ (Item.Like pl)

namespace Alike

theorem refl (l : List Item) : Alike pl l l := List.forall₂_same.2 fun _ _ => ⟨rfl, id⟩

theorem length {l l' : List Item} (h : Alike pl l l') :
    (layout pl l).length = (layout pl l').length := by
  induction h with
  | nil => rfl
  | cons h _ ih => simp [layout_cons, h.1, ih]

theorem fits {l l' : List Item} (h : Alike pl l l') (hf : ∀ i ∈ l, i.Fits pl) :
    ∀ i ∈ l', i.Fits pl := by
  induction h with
  | nil => simp
  | cons h _ ih =>
    simp only [List.mem_cons, forall_eq_or_imp] at hf ⊢
    exact ⟨h.2 hf.1, ih hf.2⟩

theorem app {a b a' b' : List Item} (h : Alike pl a a') (h' : Alike pl b b') :
    Alike pl (a ++ b) (a' ++ b') := List.rel_append h h'

theorem flat {α β : Type} {i : α → List Item} {j : β → List Item} {f : α → β} (l : List α)
    (h : ∀ a ∈ l, Alike pl (i a) (j (f a))) : Alike pl (l.flatMap i) ((l.map f).flatMap j) := by
  induction l with
  | nil => exact .nil
  | cons a l ih => exact app (h a (by simp)) (ih fun x hx => h x (by simp [hx]))

theorem word (w w' : W) : Item.Like pl (.word w) (.word w') :=
  ⟨by simp [Item.bytes, intBytes_length], id⟩

theorem vec (f : W → W) (v : Vec3 W) : Alike pl v.items (v.map f).items :=
  .cons (word _ _) (.cons (word _ _) (.cons (word _ _) .nil))

theorem lod (f : W → W) {g : FileFace → FileFace} (hg : ∀ x, Alike pl x.items (g x).items) (v : Int)
    (l : ColLod W FileFace) : Alike pl (l.items v) ((l.map f g).items v) := by
  have h1 : Alike pl (.long l.facenum :: l.faces.flatMap FileFace.items)
      (.long l.facenum :: (l.faces.map g).flatMap FileFace.items) :=
    .cons ⟨rfl, id⟩ (flat _ fun x _ => hg x)
  have h2 : Alike pl (.long l.vertnum :: (l.vertices.flatMap Vec3.items ++ l.vertids.map .sshort))
      (.long l.vertnum :: ((l.vertices.map (Vec3.map f)).flatMap Vec3.items ++
        l.vertids.map .sshort)) :=
    .cons ⟨rfl, id⟩ (app (flat _ fun x _ => vec f x) (refl _))
  have h3 : Alike pl (.long l.ynum :: l.ydata.flatMap ColY.items)
      (.long l.ynum :: (l.ydata.map (ColY.map f)).flatMap ColY.items) :=
    .cons ⟨rfl, id⟩ (flat _ fun x _ => .cons (word _ _) (refl _))
  have h4 : Alike pl (l.min.items ++ l.max.items ++ [.byte l.u7] ++ l.bmin.items ++ l.bmax.items)
      ((l.min.map f).items ++ (l.max.map f).items ++ [.byte l.u7] ++ (l.bmin.map f).items ++
        (l.bmax.map f).items) :=
    app (app (app (app (vec f _) (vec f _)) (refl _)) (vec f _)) (vec f _)
  exact app (app (app (app (app (app (refl _) h1) h2) h4) h3) (refl _)) (refl _)

theorem mesh (f : W → W) {g : FileFace → FileFace} (hg : ∀ x, Alike pl x.items (g x).items)
    (r : ColFile) : Alike pl r.items (r.map f g).items := by
  refine app (refl _) (flat _ fun x _ => ?_)
  refine .cons ⟨rfl, id⟩ (flat _ fun s _ => ?_)
  exact .cons ⟨rfl, id⟩ (flat _ fun l _ => lod f hg _ l)

theorem blank (x : FileFace) : Alike pl x.items x.blank.items := by
  refine app (a := [_, _, _]) (refl _) (.cons ⟨?_, fun _ => ?_⟩ .nil)
  · simp [Item.bytes, intBytes_length]
  · simp [Item.Fits, FileFace.blank]

end Alike

/-! ## Running out of bytes -/

namespace Strict
variable {F : Type} [FCodec F]

theorem readSShort (pl : Plat) : Strict (readSShort pl) := bind (readBytes _) fun _ => pure _

theorem readCounted {α : Type} {p : P α} (hp : Strict p) : Strict (readCounted pl p) :=
  bind (readLong _) fun _ => bind (rep hp _) fun _ => pure _

theorem readLod (v : Int) : Strict (readLod (F := F) pl v) :=
  bind (ite (bind (readLong _) fun _ => ite (pure _) (raise _)) (pure _)) fun _ =>
  bind (readCounted (bind (readSShort _) fun _ => bind (readSShort _) fun _ =>
    bind (readSShort _) fun _ => bind (readSShort _) fun _ => pure _)) fun _ =>
  bind (bind (readLong _) fun _ => bind (rep (readFloat3 _) _) fun _ =>
    bind (rep (readSShort _) _) fun _ => pure _) fun _ =>
  bind (bind (readFloat3 _) fun _ => bind (readFloat3 _) fun _ => bind readByte fun _ =>
    bind (readFloat3 _) fun _ => bind (readFloat3 _) fun _ => pure _) fun _ =>
  bind (readCounted (bind (readFloat1 _) fun _ => bind (readSShort _) fun _ =>
    bind (readSShort _) fun _ => bind (readLong _) fun _ => bind (readLong _) fun _ => pure _))
    fun _ =>
  bind (readCounted (readSShort _)) fun _ =>
  bind (ite (readCounted (readLong _)) (pure _)) fun _ => pure _

theorem readCol : Strict (readCol (F := F) pl) :=
  bind (readLong _) fun _ => bind (readLong _) fun v => bind (readLong _) fun _ =>
  bind (rep (bind (readLong _) fun _ => bind (rep (bind (readLong _) fun _ =>
    bind (rep (readLod v) _) fun _ => pure _) _) fun _ => pure _) _) fun _ => pure _

end Strict

/-- Repetition of a reader that raises after some contents. -/
theorem rep_raises {α X : Type} {p : P α} {i : X → List Item} {V : X → Prop} {e : X → α}
    (h : Parses pl p i V e) {er : Err} {l : List X} (hV : ∀ x ∈ l, V x)
    (hfit : ∀ t ∈ l.flatMap i, t.Fits pl) {s : Bytes} (hs : p s = .error er) {n : Nat}
    (hn : l.length < n) : P.rep p n (layout pl (l.flatMap i) ++ s) = .error er := by
  induction l generalizing n with
  | nil =>
    obtain ⟨n, rfl⟩ : ∃ k, n = k + 1 := ⟨n - 1, by simp at hn; omega⟩
    simp only [P.rep, P.bind_run, List.flatMap_nil, layout_nil, List.nil_append, hs]
  | cons x l ih =>
    obtain ⟨n, rfl⟩ : ∃ k, n = k + 1 := ⟨n - 1, by simp at hn; omega⟩
    rw [List.flatMap_cons] at hfit
    have h1 := (h (layout pl ((x :: l).flatMap i) ++ s) (e x) (layout pl (l.flatMap i) ++ s)).2
      ⟨x, hV x (by simp), fun t ht => hfit t (List.mem_append_left _ ht),
        by rw [List.flatMap_cons, layout_append, List.append_assoc], rfl⟩
    simp only [P.rep, P.bind_run, h1]
    rw [ih (fun y hy => hV y (by simp [hy])) (fun t ht => hfit t (List.mem_append_right _ ht))
      (by simp at hn; omega)]

end Bf2
