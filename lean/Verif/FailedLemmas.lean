import Verif.MapLemmas
import Verif.FormatLemmas

/-! # Lemmas: what a writer that raises leaves is too short for the reader -/

namespace Bf2

/-- Reading follows writing: the reader gives back `a` from all that is written for it, and runs out of
bytes if the writer raised. -/
structure Follows {α : Type} (p : P α) (w : Out) (a : α) : Prop where
  ok : w.err = none → ∀ r, p (w.bytes ++ r) = .ok (a, r)
  err : w.err ≠ none → p w.bytes = .error .structError

namespace Follows
variable {α β γ : Type}

theorem of_inverts {p : P α} {w : α → Out} {V : α → Prop} (h : Inverts p w V) {a : α} (ha : V a)
    (he : (w a).err ≠ none → p (w a).bytes = .error .structError) : Follows p (w a) a where
  ok h0 r := h.complete r ha (by rcases hw : w a with ⟨b, e⟩; rw [hw] at h0; cases h0; rfl)
  err := he

theorem pure (a : α) : Follows (pure a) .nil a := ⟨fun _ _ => rfl, fun h => absurd rfl h⟩

theorem pure_all (a : α) : Follows (Pure.pure a) (Out.all []) a := pure a

theorem seq {p : P α} {f : α → P β} {w v : Out} {a : α} {b : β} (h1 : Follows p w a)
    (h2 : Follows (f a) v b) : Follows (p >>= f) (w.seq v) b := by
  rcases w with ⟨bs, _ | e⟩
  · have h := h1.ok rfl
    rw [Out.mk_none_seq]
    constructor
    · intro h0 r
      rw [P.bind_run, List.append_assoc, h]
      exact h2.ok h0 r
    · intro h0
      rw [P.bind_run, h]
      exact h2.err h0
  · rw [Out.mk_some_seq]
    refine ⟨fun h => absurd h (by simp), fun _ => ?_⟩
    rw [P.bind_run, h1.err (by simp)]

theorem all {p : P α} {f : α → P β} {w : Out} {l : List Out} {a : α} {b : β} (h1 : Follows p w a)
    (h2 : Follows (f a) (Out.all l) b) : Follows (p >>= f) (Out.all (w :: l)) b := seq h1 h2

/-- A last reader whose value is returned. -/
theorem last {p : P α} {w : Out} {a : α} (h : Follows p w a) : Follows p (Out.all [w]) a := by
  show Follows p (w.seq .nil) a
  rw [Out.seq_nil]
  exact h

theorem rep {p : P α} {w : γ → Out} {g : γ → α} {l : List γ} {n : Nat} (hn : l.length = n)
    (h : ∀ c ∈ l, Follows p (w c) (g c)) : Follows (P.rep p n) (Out.each w l) (l.map g) := by
  subst hn
  induction l with
  | nil => exact pure _
  | cons c l ih =>
    refine seq (h c (by simp)) ?_
    rw [← Out.seq_nil (Out.each w l)]
    exact seq (ih fun c hc => h c (by simp [hc])) (pure _)

theorem rep_self {p : P α} {w : α → Out} {l : List α} {n : Nat} (hn : l.length = n)
    (h : ∀ c ∈ l, Follows p (w c) c) : Follows (P.rep p n) (Out.each w l) l := by
  simpa using rep (g := id) hn h

theorem each {f : β → P α} {w : γ → Out} {d : γ → β} {g : γ → α} {l : List γ}
    (h : ∀ c ∈ l, Follows (f (d c)) (w c) (g c)) : Follows (P.each f (l.map d)) (Out.each w l) (l.map g) := by
  induction l with
  | nil => exact pure _
  | cons c l ih =>
    refine seq (h c (by simp)) ?_
    rw [← Out.seq_nil (Out.each w l)]
    exact seq (ih fun c hc => h c (by simp [hc])) (pure _)

theorem sure {p : P α} {w : α → Out} {V : α → Prop} (h : Inverts p w V) {a : α} (ha : V a)
    (he : (w a).err = none) : Follows p (w a) a := of_inverts h ha fun h => absurd he h

theorem readBytes_nil {n : Nat} (h : 0 < n) : readBytes n [] = .error .structError := by
  unfold readBytes
  rw [if_neg (by simp; omega)]

theorem longSize_pos (pl : Plat) : 0 < pl.longSize := by
  rcases pl.longSize_cases with h | h <;> omega

theorem readLong_nil (pl : Plat) : readLong pl [] = .error .structError := by
  rw [readLong, P.bind_run, readBytes_nil (longSize_pos pl)]

theorem long (pl : Plat) (v : Int) : Follows (readLong pl) (writeLong pl v) v := by
  refine of_inverts (readLong_inv pl) trivial fun h => ?_
  unfold writeLong at h ⊢
  split_ifs at h ⊢
  · exact absurd rfl h
  · exact readLong_nil pl

theorem short (pl : Plat) (v : Int) : Follows (readShort1 pl) (writeShort pl v) v := by
  refine of_inverts (readShort1_inv pl) trivial fun h => ?_
  unfold writeShort at h ⊢
  split_ifs at h ⊢
  · exact absurd rfl h
  · rfl

theorem byte (v : Int) : Follows readByte (writeByte v) v := by
  refine of_inverts readByte_inv trivial fun h => ?_
  unfold writeByte at h ⊢
  split_ifs at h ⊢
  · exact absurd rfl h
  · rfl

theorem string (pl : Plat) (s : Bytes) : Follows (readString pl) (writeString pl s) s := by
  refine of_inverts (readString_inv pl) trivial fun h => ?_
  have hl := long pl s.length
  unfold writeString at h ⊢
  rcases hw : writeLong pl s.length with ⟨b, _ | e⟩
  · rw [hw] at h
    simp [Out.all, Out.write, Out.nil] at h
  · rw [hw] at hl
    simp only [Out.all, Out.mk_some_seq]
    rw [readString, P.bind_run, hl.err (by simp)]

theorem float3 (pl : Plat) (v : Vec3 (BitVec 32)) : Follows (readFloat3 pl) (writeFloat3 pl v) v :=
  sure (readFloat3_inv pl) trivial rfl

theorem matrix (pl : Plat) (v : Mat4 (BitVec 32)) : Follows (readMatrix4 pl) (writeMatrix4 pl v) v :=
  sure (readMatrix4_inv pl) trivial rfl

theorem head (pl : Plat) (h : Head) : Follows (loadHead pl) (exportHead pl h) h :=
  all (long pl _) <| all (long pl _) <| all (long pl _) <| all (long pl _) <| all (long pl _) <| pure_all _

theorem vattr (pl : Plat) (a : VAttr) : Follows (loadVAttr pl) (exportVAttr pl a) a :=
  all (short pl _) <| all (short pl _) <| all (short pl _) <| all (short pl _) <| pure_all _

theorem bone (pl : Plat) (b : Bone (BitVec 32)) : Follows (loadBone pl) (exportBone pl b) b :=
  all (long pl _) <| all (matrix pl _) <| pure_all _

theorem rig (pl : Plat) (r : Rig (BitVec 32)) (h : r.bones.length = r.bonenum.toNat) :
    Follows (loadRig pl) (exportRig pl r) r :=
  all (long pl _) <| all (rep_self h fun b _ => bone pl b) <| pure_all _

theorem pivot (pl : Plat) (version : Int) (o : Option (Vec3 (BitVec 32)))
    (h : o.isSome = decide (version ≤ 6)) :
    Follows (loadPivot pl version) (if version ≤ 6 then writeFloat3? pl o else .nil) o := by
  refine sure (pivot_inv pl version) h ?_
  split_ifs with hv
  · simp only [hv, decide_true] at h
    obtain ⟨v, rfl⟩ := Option.isSome_iff_exists.1 h
    rfl
  · rfl

theorem nodes (pl : Plat) (k : Kind) (n : Int) (l : List (Mat4 (BitVec 32)))
    (h : l.length = if k.isBundled = true then 0 else n.toNat) :
    Follows (loadNodes pl k n) (if k.isBundled = true then .nil else .each (writeMatrix4 pl) l) l := by
  unfold loadNodes
  split_ifs at h ⊢
  · rw [List.eq_nil_of_length_eq_zero h]
    exact pure _
  · exact rep_self h fun v _ => matrix pl v

/-- A lod before its materials are read. -/
def bare {F : Type} (l : Lod F) : Lod F := { l with matnum := 0, materials := [] }

theorem lodNodes (pl : Plat) (version : Int) (k : Kind) (l : Lod (BitVec 32)) (h : LodNodesWF k version l) :
    Follows (loadLodNodes pl version k) (exportLodNodes pl version k l) (bare l) := by
  unfold loadLodNodes exportLodNodes
  refine all (float3 pl _) <| all (float3 pl _) <| all (pivot pl version _ h.pivot) ?_
  apply last
  have hn := h.nodes
  by_cases hk : k.isSkinned = true
  · simp only [hk, if_true, Bool.true_or] at hn ⊢
    have h1 : bare l = ⟨l.min, l.max, l.pivot, l.rignum, l.rigs, 0, [], 0, []⟩ := by
      have h7 : l.nodes = [] := List.eq_nil_of_length_eq_zero hn
      have h8 := h.no_nodes hk
      unfold bare
      rw [h7, h8]
    rw [h1]
    exact all (long pl _) <| all (rep_self h.rigs fun r hr => rig pl r (h.bones r hr)) <| pure_all _
  · rw [Bool.not_eq_true] at hk
    simp only [hk, Bool.false_eq_true, if_false, Bool.false_or] at hn ⊢
    have h1 : bare l = ⟨l.min, l.max, l.pivot, 0, [], l.nodenum, l.nodes, 0, []⟩ := by
      have h8 := h.no_rigs hk
      have h7 : l.rigs = [] := List.eq_nil_of_length_eq_zero (by rw [h.rigs, h8]; rfl)
      unfold bare
      rw [h7, h8]
    rw [h1]
    exact all (long pl _) <| all (nodes pl k _ _ hn) <| pure_all _

theorem alpha (pl : Plat) (k : Kind) (o : Option Int) (h : o.isSome = !k.isSkinned) :
    Follows (loadAlphamode pl k) (if k.isSkinned = true then .nil else writeLong? pl o) o := by
  unfold loadAlphamode
  split_ifs with hk
  · rw [hk] at h
    rcases o with _ | v
    · exact pure _
    · cases h
  · rw [Bool.not_eq_true] at hk
    rw [hk] at h
    obtain ⟨v, rfl⟩ := Option.isSome_iff_exists.1 h
    show Follows _ (writeLong pl v) _
    rw [← Out.seq_nil (writeLong pl v)]
    exact seq (long pl v) (pure _)

theorem mat (pl : Plat) (version : Int) (k : Kind) (m : Mat (BitVec 32)) (h : MatWF k version m) :
    Follows (loadMat pl version k) (exportMat pl version k m) m := by
  unfold loadMat exportMat
  refine all (alpha pl k _ h.alphamode) <| all (string pl _) <| all (string pl _) <| all (long pl _) <|
    all (rep_self h.maps fun s _ => string pl s) <| all (long pl _) <| all (long pl _) <| all (long pl _) <|
    all (long pl _) <| all (long pl _) <| all (long pl _) ?_
  apply last
  have h1 := h.mmin
  have h2 := h.mmax
  split_ifs at h1 h2 ⊢ with hc
  · rw [hc] at h1 h2
    obtain ⟨v, hv⟩ := Option.isSome_iff_exists.1 h1
    obtain ⟨w, hw⟩ := Option.isSome_iff_exists.1 h2
    rcases m with ⟨_, _, _, _, _, _, _, _, _, _, _, _, _⟩
    simp only at hv hw
    subst hv hw
    exact all (float3 pl _) <| all (float3 pl _) <| pure_all _
  · rw [Bool.not_eq_true] at hc
    rw [hc] at h1 h2
    rcases m with ⟨_, _, _, _, _, _, _, _, _, _, _, _ | _, _ | _⟩
    · exact pure _
    all_goals simp at h1 h2

theorem lodMats (pl : Plat) (version : Int) (k : Kind) (l : Lod (BitVec 32)) (h : LodMatsWF k version l) :
    Follows (loadLodMaterials pl version k (bare l)) (exportLodMaterials pl version k l) l :=
  all (long pl _) <| all (rep_self h.materials fun a ha => mat pl version k a (h.each a ha)) <| pure_all _

theorem floats (pl : Plat) (l : List (BitVec 32)) {a b c : Int} (h0 : b ≠ 0)
    (h : (l.length : Int) = intDivMul a b c) (h1 : l.length ≠ 1) :
    Follows (loadVertices pl a b c) (.each (writeFloat pl) l) l := by
  have hf : ∀ v : BitVec 32, Follows (readFloat1 pl) (writeFloat pl v) v := fun v =>
    sure (readFloat1_inv pl) trivial rfl
  have hr : Follows (P.rep (readFloat1 pl) (intDivMul a b c).toNat) (.each (writeFloat pl) l) l :=
    rep_self (by omega) fun v _ => hf v
  unfold loadVertices dataNum
  rw [if_neg h0]
  simp only
  unfold readFloat readCount
  rw [if_neg (by omega), if_neg (by omega)]
  rw [← Out.seq_nil (Out.each (writeFloat pl) l), bind_assoc]
  exact seq hr (by simpa using pure l)

theorem index (pl : Plat) (n : Int) (x : OneOrMany Int) (h : IndexWF n x) :
    Follows (readShort pl n) (exportIndex pl x) x := by
  unfold readShort readCount
  rcases x with v | l
  · obtain rfl : n = 1 := h
    refine ⟨fun h => absurd h (by simp [exportIndex]), fun _ => ?_⟩
    rw [if_neg (by omega), if_pos rfl]
    rfl
  · obtain ⟨h0, h1, h2⟩ := h
    rw [if_neg (by omega), if_neg h1]
    rw [← Out.seq_nil (exportIndex pl (.many l))]
    exact seq (rep_self h2 fun v _ => short pl v) (pure _)

theorem mesh (pl : Plat) (m : Mesh (BitVec 32)) (h : MeshWF m) :
    Follows (loadBody pl m.kind) (exportMesh pl m) m := by
  unfold loadBody exportMesh
  refine all (head pl _) <| all (byte _) <| all (long pl _) <|
    all (rep (g := fun g : Geom (BitVec 32) => g.lodnum) h.geoms fun g _ => long pl _) <|
    all (long pl _) <| all (rep_self h.vattrs fun a _ => vattr pl a) <|
    all (long pl _) <| all (long pl _) <| all (long pl _) <|
    all (floats pl _ h.vertformat h.vertices h.not_one) <| all (long pl _) <|
    all (index pl _ _ h.index) <| all ?_ <|
    all (each (d := fun g : Geom (BitVec 32) => g.lodnum)
      (g := fun g => (⟨g.lodnum, g.lods.map bare⟩ : Geom (BitVec 32))) fun g hg => ?_) <|
    all ?_ <| pure_all _
  · have hu := h.u2
    unfold loadU2
    split_ifs with hk
    · rw [hu hk]
      exact pure _
    · exact long pl _
  · unfold loadGeomNodes
    rw [← Out.seq_nil (Out.each _ g.lods)]
    exact seq (rep (h.geom g hg).lods fun l hl => lodNodes pl _ _ l ((h.geom g hg).nodes l hl)) (pure _)
  · have := each (f := loadGeomMaterials pl m.head.version m.kind)
      (w := fun g : Geom (BitVec 32) => .each (exportLodMaterials pl m.head.version m.kind) g.lods)
      (d := fun g => (⟨g.lodnum, g.lods.map bare⟩ : Geom (BitVec 32))) (g := id) (l := m.geoms) ?_
    · simpa using this
    · intro g hg
      unfold loadGeomMaterials
      rw [← Out.seq_nil (Out.each _ g.lods)]
      have := each (f := loadLodMaterials pl m.head.version m.kind)
        (w := exportLodMaterials pl m.head.version m.kind) (d := bare) (g := id) (l := g.lods)
        fun l hl => lodMats pl _ _ l ((h.geom g hg).mats l hl)
      rw [List.map_id] at this
      exact seq this (pure _)

end Follows

/-! ## What a writer raises -/

/-- Nothing but `struct.error` is raised, or, if `t`, a `TypeError`. -/
def PackOnly (t : Prop) (w : Out) : Prop := ∀ e, w.err = some e → e = .structError ∨ e = .typeError ∧ t

namespace PackOnly
variable {t : Prop}

theorem of_none {w : Out} (h : w.err = none) : PackOnly t w := fun e he => by rw [h] at he; cases he

theorem nil : PackOnly t .nil := of_none rfl

theorem seq {a b : Out} (ha : PackOnly t a) (hb : PackOnly t b) : PackOnly t (a.seq b) := by
  intro e he
  rcases a with ⟨bs, _ | e'⟩
  · rw [Out.mk_none_seq] at he
    exact hb e he
  · rw [Out.mk_some_seq] at he
    exact ha e he

theorem all {l : List Out} (h : ∀ w ∈ l, PackOnly t w) : PackOnly t (Out.all l) := by
  induction l with
  | nil => exact nil
  | cons w l ih => exact seq (h w (by simp)) (ih fun v hv => h v (by simp [hv]))

theorem each {α : Type} {f : α → Out} {l : List α} (h : ∀ a ∈ l, PackOnly t (f a)) :
    PackOnly t (Out.each f l) := by
  induction l with
  | nil => exact nil
  | cons w l ih => exact seq (h w (by simp)) (ih fun v hv => h v (by simp [hv]))

theorem long (pl : Plat) (v : Int) : PackOnly t (writeLong pl v) := by
  intro e he
  unfold writeLong at he
  split_ifs at he <;> cases he
  exact .inl rfl

theorem short (pl : Plat) (v : Int) : PackOnly t (writeShort pl v) := by
  intro e he
  unfold writeShort at he
  split_ifs at he <;> cases he
  exact .inl rfl

theorem byte (v : Int) : PackOnly t (writeByte v) := by
  intro e he
  unfold writeByte at he
  split_ifs at he <;> cases he
  exact .inl rfl

theorem string (pl : Plat) (s : Bytes) : PackOnly t (writeString pl s) :=
  seq (long pl _) (seq (of_none rfl) nil)

variable {F : Type} [FCodec F]

theorem float3 {pl : Plat} {o : Option (Vec3 F)} (h : o.isSome = true) : PackOnly t (writeFloat3? pl o) := by
  obtain ⟨v, rfl⟩ := Option.isSome_iff_exists.1 h
  exact of_none rfl

theorem long? (pl : Plat) (o : Option Int) : PackOnly t (writeLong? pl o) := by
  rcases o with _ | v
  · intro e he
    cases he
    exact .inl rfl
  · exact long pl v

theorem mat {pl : Plat} {version : Int} {k : Kind} {m : Mat F} (h : MatWF k version m) :
    PackOnly t (exportMat pl version k m) := by
  have h1 := h.mmin
  have h2 := h.mmax
  refine seq (by split_ifs; exact nil; exact long? pl _) <| seq (string pl _) <| seq (string pl _) <|
    seq (long pl _) <| seq (each fun s _ => string pl s) <| seq (long pl _) <| seq (long pl _) <|
    seq (long pl _) <| seq (long pl _) <| seq (long pl _) <| seq (long pl _) <| seq ?_ nil
  split_ifs with hc
  · rw [hc] at h1 h2
    exact seq (float3 h1) <| seq (float3 h2) nil
  · exact nil

theorem lodNodes {pl : Plat} {version : Int} {k : Kind} {l : Lod F} (h : LodNodesWF k version l) :
    PackOnly t (exportLodNodes pl version k l) := by
  have h1 := h.pivot
  refine seq (of_none rfl) <| seq (of_none rfl) <| seq ?_ <| seq ?_ nil
  · split_ifs with hv
    · exact float3 (by rw [h1]; simpa using hv)
    · exact nil
  · split_ifs
    · exact seq (long pl _) <| seq (each fun r _ => seq (long pl _) <|
        seq (each fun b _ => seq (long pl _) <| seq (of_none rfl) nil) nil) nil
    · exact seq (long pl _) <| seq nil nil
    · exact seq (long pl _) <| seq (each fun v _ => of_none rfl) nil

/-- What is written in front of the index array, the index array, and the rest. -/
theorem mesh {pl : Plat} {m : Mesh F} (h : MeshWF m) :
    PackOnly (∃ i, m.index = .one i) (exportMesh pl m) := by
  refine seq (seq (long pl _) <| seq (long pl _) <| seq (long pl _) <| seq (long pl _) <| seq (long pl _) nil) <|
    seq (byte _) <| seq (long pl _) <| seq (each fun g _ => long pl _) <| seq (long pl _) <|
    seq (each fun a _ => seq (short pl _) <| seq (short pl _) <| seq (short pl _) <| seq (short pl _) nil) <|
    seq (long pl _) <| seq (long pl _) <| seq (long pl _) <| seq (each fun v _ => of_none rfl) <|
    seq (long pl _) <| seq ?_ <| seq (by split_ifs; exact nil; exact long pl _) <|
    seq (each fun g hg => each fun l hl => lodNodes ((h.geom g hg).nodes l hl)) <|
    seq (each fun g hg => each fun l hl => seq (long pl _) <|
      seq (each fun a ha => mat (((h.geom g hg).mats l hl).each a ha)) nil) nil
  rcases m.index with i | ix
  · intro e he
    cases he
    exact .inr ⟨rfl, i, rfl⟩
  · exact each fun v _ => short pl v

end PackOnly

end Bf2
