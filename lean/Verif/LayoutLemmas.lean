import Verif.Layout
import Verif.MeshLemmas

/-! # The exporters write the declared layout -/

namespace Bf2

theorem layout_nil (pl : Plat) : layout pl [] = [] := rfl
theorem layout_cons (pl : Plat) (i : Item) (l : List Item) :
    layout pl (i :: l) = i.bytes pl ++ layout pl l := rfl
theorem layout_append (pl : Plat) (l l' : List Item) :
    layout pl (l ++ l') = layout pl l ++ layout pl l' := by simp [layout]

/-- `o` writes exactly these items: it succeeds iff all of them fit, with their bytes. -/
def Writes (pl : Plat) (o : Out) (items : List Item) : Prop :=
  ∀ bs, o = ⟨bs, none⟩ ↔ (∀ i ∈ items, i.Fits pl) ∧ bs = layout pl items

namespace Writes
variable {pl : Plat}

theorem nil : Writes pl .nil [] := fun bs => by simp [Out.nil_ok, layout]

theorem seq {a b : Out} {i j : List Item} (ha : Writes pl a i) (hb : Writes pl b j) :
    Writes pl (a.seq b) (i ++ j) := by
  intro bs
  rw [Out.seq_ok, layout_append]
  constructor
  · rintro ⟨b1, b2, h1, h2, rfl⟩
    obtain ⟨f1, rfl⟩ := (ha _).1 h1
    obtain ⟨f2, rfl⟩ := (hb _).1 h2
    exact ⟨fun x hx => (List.mem_append.1 hx).elim (f1 x) (f2 x), rfl⟩
  · rintro ⟨h, rfl⟩
    exact ⟨_, _, (ha _).2 ⟨fun x hx => h x (List.mem_append_left _ hx), rfl⟩,
      (hb _).2 ⟨fun x hx => h x (List.mem_append_right _ hx), rfl⟩, rfl⟩

theorem congr {a : Out} {i j : List Item} (ha : Writes pl a i) (h : i = j) : Writes pl a j := h ▸ ha

theorem all_nil : Writes pl (.all []) [] := nil

theorem all_cons {a : Out} {l : List Out} {i j : List Item} (ha : Writes pl a i)
    (hl : Writes pl (.all l) j) : Writes pl (.all (a :: l)) (i ++ j) := seq ha hl

theorem each {α : Type} {f : α → Out} {g : α → List Item} {l : List α}
    (h : ∀ a ∈ l, Writes pl (f a) (g a)) : Writes pl (.each f l) (l.flatMap g) := by
  induction l with
  | nil => exact nil
  | cons a l ih =>
    exact seq (h a (by simp)) (ih fun x hx => h x (by simp [hx]))

theorem each_map {α : Type} {f : α → Out} {g : α → Item} {l : List α}
    (h : ∀ a, Writes pl (f a) [g a]) : Writes pl (.each f l) (l.map g) :=
  (each fun a _ => h a).congr (by induction l <;> simp_all)

/-- A block of floats, written at once. -/
theorem words {bs : Bytes} {l : List (BitVec 32)} (h : bs = layout pl (l.map .word)) :
    Writes pl (.write bs) (l.map .word) := by
  intro b
  rw [Out.write_ok, h]
  constructor
  · rintro rfl
    refine ⟨fun i hi => ?_, rfl⟩
    obtain ⟨w, -, rfl⟩ := List.mem_map.1 hi
    exact trivial
  · exact fun h => h.2

end Writes

/-! ## Bytes of integers -/

theorem encLE_eq (k : Nat) (n : Nat) :
    encLE k n = (List.range k).map fun i => UInt8.ofNat (n / 256 ^ i % 256) := by
  induction k generalizing n with
  | zero => rfl
  | succ k ih =>
    rw [encLE, ih, List.range_succ_eq_map, List.map_cons, List.map_map]
    simp only [pow_zero, Nat.div_one]
    congr 1
    refine List.map_congr_left fun i _ => ?_
    simp only [Function.comp]
    rw [Nat.div_div_eq_div_mul, Nat.pow_succ, Nat.mul_comm]

/-- The low bytes of `v` and of its remainder modulo `256 ^ k` agree. -/
theorem byte_mod (k i : Nat) (h : i < k) (v : Int) :
    ((v % 256 ^ k).toNat / 256 ^ i % 256 : Nat) = (v / 256 ^ i % 256).toNat := by
  have hk : (0 : Int) < 256 ^ k := by positivity
  have hi : (0 : Int) < 256 ^ i := by positivity
  have h0 : 0 ≤ v % 256 ^ k := Int.emod_nonneg _ hk.ne'
  obtain ⟨n, hn⟩ := Int.eq_ofNat_of_zero_le h0
  have hd := Int.emod_add_mul_ediv v (256 ^ k)
  obtain ⟨d, rfl⟩ : ∃ d, k = i + 1 + d := ⟨k - i - 1, by omega⟩
  have e : v / 256 ^ i % 256 = (v % 256 ^ (i + 1 + d)) / 256 ^ i % 256 := by
    conv_lhs => rw [← hd]
    rw [show (256 : Int) ^ (i + 1 + d) * (v / 256 ^ (i + 1 + d))
        = 256 ^ i * (256 * (256 ^ d * (v / 256 ^ (i + 1 + d)))) by rw [pow_add, pow_succ]; ring,
      Int.add_mul_ediv_left _ _ hi.ne', Int.add_mul_emod_self_left]
  rw [e, hn]
  simp only [Int.toNat_natCast]
  rw [show ((n : Int) / 256 ^ i % 256) = ((n / 256 ^ i % 256 : Nat) : Int) by push_cast; rfl]
  exact (Int.toNat_natCast _).symm

theorem Plat.enc_eq (pl : Plat) (k : Nat) (v : Int) :
    pl.enc k (v % 256 ^ k).toNat = intBytes pl.bigEndian k v := by
  unfold Plat.enc Plat.order intBytes
  rw [encLE_eq]
  have : (List.range k).map (fun i => UInt8.ofNat ((v % 256 ^ k).toNat / 256 ^ i % 256))
      = (List.range k).map fun i => UInt8.ofNat (v / 256 ^ i % 256).toNat :=
    List.map_congr_left fun i hi => by rw [byte_mod k i (List.mem_range.1 hi)]
  rw [this]

theorem ofSigned_eq (k : Nat) (v : Int) : ofSigned k v = (v % 256 ^ k).toNat := by
  unfold ofSigned
  rw [pow_mul]; norm_num

theorem Plat.enc_nat (pl : Plat) (k n : Nat) (h : n < 256 ^ k) :
    pl.enc k n = intBytes pl.bigEndian k n := by
  rw [← pl.enc_eq, Int.emod_eq_of_lt (by positivity) (by exact_mod_cast h)]; simp

/-! ## Primitive writers -/

variable {pl : Plat}

theorem writeLong_writes (v : Int) : Writes pl (writeLong pl v) [.long v] := by
  intro bs
  have h1 : fitsSigned pl.longSize v = true ↔ IsLong pl v := by
    unfold IsLong fitsSigned Plat.longSize
    simp only [Bool.and_eq_true, decide_eq_true_eq]
    cases pl.long8 <;> norm_num <;> omega
  have h2 : pl.enc pl.longSize (ofSigned pl.longSize v) = longBytes pl v := by
    rw [ofSigned_eq, pl.enc_eq]; rfl
  simp only [List.mem_singleton, forall_eq, Item.Fits, layout_cons, layout_nil, Item.bytes,
    List.append_nil]
  unfold writeLong
  rw [h2]
  split
  · next h => rw [Out.write_ok]; exact ⟨fun e => ⟨h1.1 h, e⟩, fun e => e.2⟩
  · next h => exact ⟨fun e => absurd e Out.raise_ok, fun e => absurd (h1.2 e.1) h⟩

theorem writeShort_writes (v : Int) : Writes pl (writeShort pl v) [.short v] := by
  intro bs
  simp only [List.mem_singleton, forall_eq, Item.Fits, IsShort, layout_cons, layout_nil, Item.bytes,
    List.append_nil]
  unfold writeShort
  split
  · next h =>
    simp only [fitsShort, Bool.and_eq_true, decide_eq_true_eq] at h
    have h2 : pl.enc 2 v.toNat = intBytes pl.bigEndian 2 v := by
      rw [pl.enc_nat _ _ (by omega), Int.toNat_of_nonneg h.1]
    rw [Out.write_ok, h2]
    exact ⟨fun e => ⟨by omega, e⟩, fun e => e.2⟩
  · next h =>
    simp only [fitsShort, Bool.and_eq_true, decide_eq_true_eq] at h
    exact ⟨fun e => absurd e Out.raise_ok, fun e => absurd (by omega) h⟩

theorem writeByte_writes (v : Int) : Writes pl (writeByte v) [.byte v] := by
  intro bs
  simp only [List.mem_singleton, forall_eq, Item.Fits, layout_cons, layout_nil, Item.bytes,
    List.append_nil]
  have h1 : fitsSigned 1 v = true ↔ -128 ≤ v ∧ v ≤ 127 := by
    unfold fitsSigned
    simp only [Bool.and_eq_true, decide_eq_true_eq]
    norm_num; omega
  have h2 : encLE 1 (ofSigned 1 v) = intBytes pl.bigEndian 1 v := by
    have := pl.enc_eq 1 v
    rw [← this, ofSigned_eq]
    unfold Plat.enc Plat.order
    split <;> simp [encLE]
  unfold writeByte
  rw [h2]
  split
  · next h => rw [Out.write_ok]; exact ⟨fun e => ⟨h1.1 h, e⟩, fun e => e.2⟩
  · next h => exact ⟨fun e => absurd e Out.raise_ok, fun e => absurd (h1.2 e.1) h⟩

theorem floatBytes_eq (w : W) : floatBytes pl w = (Item.word w).bytes pl :=
  pl.enc_nat 4 w.toNat (by have := w.isLt; omega)

theorem writeFloat_writes (w : W) : Writes pl (writeFloat pl w) [.word w] :=
  Writes.words (l := [w]) (by simp [layout_cons, layout_nil, floatBytes_eq])

theorem writeFloat3_writes (v : Vec3 W) : Writes pl (writeFloat3 pl v) v.items :=
  Writes.words (by simp [Vec3.floats, layout_cons, layout_nil, floatBytes_eq])

theorem writeFloat4_writes (v : Vec4 W) : Writes pl (writeFloat4 pl v) (v.floats.map .word) :=
  Writes.words (by simp [Vec4.floats, layout_cons, layout_nil, floatBytes_eq])

theorem writeMatrix4_writes (m : Mat4 W) : Writes pl (writeMatrix4 pl m) m.items :=
  (Writes.all_cons (writeFloat4_writes _) <| .all_cons (writeFloat4_writes _) <|
    .all_cons (writeFloat4_writes _) <| .all_cons (writeFloat4_writes _) .all_nil).congr
    (by simp [Mat4.items, Mat4.floats])

theorem writeString_writes (s : Bytes) : Writes pl (writeString pl s) [.text s] := by
  intro bs
  simp only [writeString, Out.all, Out.seq_nil, Out.seq_ok, Out.write_ok]
  simp only [List.mem_singleton, forall_eq, Item.Fits, layout_cons, layout_nil, Item.bytes,
    List.append_nil]
  constructor
  · rintro ⟨b1, b2, h1, rfl, rfl⟩
    obtain ⟨h, rfl⟩ := (writeLong_writes _ _).1 h1
    exact ⟨h (.long _) (by simp), by simp [layout_cons, layout_nil, Item.bytes]⟩
  · rintro ⟨h, rfl⟩
    exact ⟨_, _, (writeLong_writes _ _).2 ⟨by simpa [Item.Fits] using h, rfl⟩, rfl,
      by simp [layout_cons, layout_nil, Item.bytes]⟩

/-! ## Exporters -/

theorem exportHead_writes (h : Head) : Writes pl (exportHead pl h) h.items :=
  .all_cons (writeLong_writes _) <| .all_cons (writeLong_writes _) <|
    .all_cons (writeLong_writes _) <| .all_cons (writeLong_writes _) <|
    .all_cons (writeLong_writes _) .all_nil

theorem exportVAttr_writes (a : VAttr) : Writes pl (exportVAttr pl a) a.items :=
  .all_cons (writeShort_writes _) <| .all_cons (writeShort_writes _) <|
    .all_cons (writeShort_writes _) <| .all_cons (writeShort_writes _) .all_nil

theorem exportBone_writes (b : Bone W) : Writes pl (exportBone pl b) b.items :=
  (Writes.all_cons (writeLong_writes _) <| .all_cons (writeMatrix4_writes _) .all_nil).congr
    (by simp [Bone.items])

theorem exportRig_writes (r : Rig W) : Writes pl (exportRig pl r) r.items :=
  (Writes.all_cons (writeLong_writes _) <| .all_cons (.each fun _ _ => exportBone_writes _)
    .all_nil).congr (by simp [Rig.items])

theorem writeFloat3?_writes {o : Option (Vec3 W)} (h : o.isSome = true) :
    Writes pl (writeFloat3? pl o) (optItems Vec3.items o) := by
  cases o with
  | none => cases h
  | some v => exact writeFloat3_writes v

theorem optItems_none {α : Type} {f : α → List Item} {o : Option α} (h : o.isSome = false) :
    optItems f o = [] := by
  cases o with
  | none => rfl
  | some v => cases h

theorem exportLodNodes_writes {k : Kind} {v : Int} {l : Lod W} (h : LodNodesWF k v l) :
    Writes pl (exportLodNodes pl v k l) (l.nodeItems k) := by
  have hp : Writes pl (if v ≤ 6 then writeFloat3? pl l.pivot else .nil)
      (optItems Vec3.items l.pivot) := by
    have := h.pivot
    by_cases hv : v ≤ 6
    · rw [if_pos hv]; exact writeFloat3?_writes (by simpa [hv] using this)
    · rw [if_neg hv, optItems_none (by simpa [hv] using this)]; exact .nil
  have hn : Writes pl
      (if k.isSkinned then .all [writeLong pl l.rignum, .each (exportRig pl) l.rigs]
        else .all [writeLong pl l.nodenum,
          if k.isBundled then .nil else .each (writeMatrix4 pl) l.nodes])
      (if k.isSkinned then .long l.rignum :: l.rigs.flatMap Rig.items
        else .long l.nodenum :: l.nodes.flatMap Mat4.items) := by
    by_cases hk : k.isSkinned = true
    · rw [if_pos hk, if_pos hk]
      exact (Writes.all_cons (writeLong_writes _) <|
        .all_cons (.each fun _ _ => exportRig_writes _) .all_nil).congr (by simp)
    · rw [if_neg hk, if_neg hk]
      refine (Writes.all_cons (writeLong_writes _) <|
        .all_cons (j := []) (i := l.nodes.flatMap Mat4.items) ?_ .all_nil).congr (by simp)
      by_cases hb : k.isBundled = true
      · have := h.nodes
        rw [hb, Bool.or_true, if_pos rfl] at this
        rw [if_pos hb, List.eq_nil_of_length_eq_zero this]
        exact .nil
      · rw [if_neg hb]; exact .each fun _ _ => writeMatrix4_writes _
  exact (Writes.all_cons (writeFloat3_writes _) <| .all_cons (writeFloat3_writes _) <|
    .all_cons hp <| .all_cons hn .all_nil).congr (by simp [Lod.nodeItems])

theorem exportMat_writes {k : Kind} {v : Int} {m : Mat W} (h : MatWF k v m) :
    Writes pl (exportMat pl v k m) m.items := by
  have ha : Writes pl (if k.isSkinned then .nil else writeLong? pl m.alphamode)
      (optItems (fun a => [.long a]) m.alphamode) := by
    have := h.alphamode
    by_cases hk : k.isSkinned = true
    · rw [if_pos hk, optItems_none (by simpa [hk] using this)]; exact .nil
    · rw [if_neg hk]
      rw [Bool.not_eq_true] at hk
      rw [hk] at this
      cases ho : m.alphamode with
      | none => rw [ho] at this; cases this
      | some a => exact writeLong_writes a
  have hb : Writes pl (if !k.isSkinned && v == 11 then
      .all [writeFloat3? pl m.mmin, writeFloat3? pl m.mmax] else .nil)
      (optItems Vec3.items m.mmin ++ optItems Vec3.items m.mmax) := by
    have h1 := h.mmin
    have h2 := h.mmax
    by_cases hk : (!k.isSkinned && v == 11) = true
    · rw [hk] at h1 h2
      rw [if_pos hk]
      exact (Writes.all_cons (writeFloat3?_writes h1) <|
        .all_cons (writeFloat3?_writes h2) .all_nil).congr (by simp)
    · rw [if_neg hk]
      rw [Bool.not_eq_true] at hk
      rw [hk] at h1 h2
      rw [optItems_none h1, optItems_none h2]; exact .nil
  exact (Writes.all_cons ha <| .all_cons (writeString_writes _) <|
    .all_cons (writeString_writes _) <| .all_cons (writeLong_writes _) <|
    .all_cons (.each_map writeString_writes) <| .all_cons (writeLong_writes _) <|
    .all_cons (writeLong_writes _) <| .all_cons (writeLong_writes _) <|
    .all_cons (writeLong_writes _) <| .all_cons (writeLong_writes _) <|
    .all_cons (writeLong_writes _) <| .all_cons hb .all_nil).congr (by simp [Mat.items])

theorem exportLodMaterials_writes {k : Kind} {v : Int} {l : Lod W} (h : LodMatsWF k v l) :
    Writes pl (exportLodMaterials pl v k l) l.matItems :=
  (Writes.all_cons (writeLong_writes _) <|
    .all_cons (.each fun m hm => exportMat_writes (h.each m hm)) .all_nil).congr
    (by simp [Lod.matItems])

theorem indexBytes_writes (x : OneOrMany Int) :
    Writes pl (indexBytes pl x) (x.elems.map .short) := by
  cases x with
  | one a => exact writeShort_writes a
  | many l => exact .each_map writeShort_writes

theorem fileBytes_writes {m : Mesh W} (h : MeshWF m) : Writes pl (fileBytes pl m) m.items := by
  have hu : Writes pl (if m.kind.isSkinned then .nil else writeLong pl m.u2)
      (if m.kind.isSkinned then [] else [.long m.u2]) := by
    split
    · exact .nil
    · exact writeLong_writes _
  have hl : Writes pl (.each (fun g => writeLong pl g.lodnum) m.geoms)
      (m.geoms.map fun g => .long g.lodnum) := .each_map fun g => writeLong_writes _
  have ha : Writes pl (.each (exportVAttr pl) m.vattrs) (m.vattrs.flatMap VAttr.items) :=
    .each fun a _ => exportVAttr_writes a
  have hv : Writes pl (.each (writeFloat pl) m.vertices) (m.vertices.map .word) :=
    .each_map writeFloat_writes
  have hn : Writes pl
      (.each (fun g => .each (exportLodNodes pl m.head.version m.kind) g.lods) m.geoms)
      (m.geoms.flatMap fun g => g.lods.flatMap (Lod.nodeItems m.kind)) :=
    .each fun g hg => .each fun l hl => exportLodNodes_writes ((h.geom g hg).nodes l hl)
  have hm : Writes pl
      (.each (fun g => .each (exportLodMaterials pl m.head.version m.kind) g.lods) m.geoms)
      (m.geoms.flatMap fun g => g.lods.flatMap Lod.matItems) :=
    .each fun g hg => .each fun l hl => exportLodMaterials_writes ((h.geom g hg).mats l hl)
  have hi := indexBytes_writes (pl := pl) m.index
  have key := ((exportHead_writes (pl := pl) m.head).all_cons <| (writeByte_writes m.u1).all_cons <|
    (writeLong_writes m.geomnum).all_cons <| hl.all_cons <|
    (writeLong_writes m.vertattribnum).all_cons <| ha.all_cons <|
    (writeLong_writes m.vertformat).all_cons <| (writeLong_writes m.vertstride).all_cons <|
    (writeLong_writes m.vertnum).all_cons <| hv.all_cons <|
    (writeLong_writes m.indexnum).all_cons <| hi.all_cons <| hu.all_cons <| hn.all_cons <|
    hm.all_cons .all_nil)
  refine key.congr ?_
  simp only [Mesh.items, Preamble.items, Mesh.preamble, List.map_map, Function.comp_def,
    List.append_assoc, List.append_nil, List.cons_append, List.nil_append]

/-- The part of a file before the vertex block. -/
theorem preamble_writes (p : Preamble) : Writes pl
    (.all [writeLong pl p.head.u1, writeLong pl p.head.version, writeLong pl p.head.u3,
      writeLong pl p.head.u4, writeLong pl p.head.u5, writeByte p.u1, writeLong pl p.geomnum,
      .each (writeLong pl) p.lodnums, writeLong pl p.vertattribnum,
      .each (exportVAttr pl) p.vattrs, writeLong pl p.vertformat, writeLong pl p.vertstride,
      writeLong pl p.vertnum]) p.items := by
  have hl : Writes pl (.each (writeLong pl) p.lodnums) (p.lodnums.map .long) :=
    .each_map writeLong_writes
  have ha : Writes pl (.each (exportVAttr pl) p.vattrs) (p.vattrs.flatMap VAttr.items) :=
    .each fun a _ => exportVAttr_writes a
  have key := ((writeLong_writes (pl := pl) p.head.u1).all_cons <|
    (writeLong_writes p.head.version).all_cons <| (writeLong_writes p.head.u3).all_cons <|
    (writeLong_writes p.head.u4).all_cons <| (writeLong_writes p.head.u5).all_cons <|
    (writeByte_writes p.u1).all_cons <| (writeLong_writes p.geomnum).all_cons <| hl.all_cons <|
    (writeLong_writes p.vertattribnum).all_cons <| ha.all_cons <|
    (writeLong_writes p.vertformat).all_cons <| (writeLong_writes p.vertstride).all_cons <|
    (writeLong_writes p.vertnum).all_cons .all_nil)
  refine key.congr ?_
  simp only [Preamble.items, Head.items, List.append_assoc, List.append_nil, List.cons_append,
    List.nil_append]

end Bf2
