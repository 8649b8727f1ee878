import Verif.LayoutLemmas

/-! # A negative string length anywhere makes the loader raise -/

namespace Bf2

variable {α β : Type} {pl : Plat}

/-- `p` reads `a` from the bytes of `items`, and raises `struct.error` when the length field of one
of the strings among them is replaced by a negative number, whatever follows. -/
structure Reads (pl : Plat) (p : P α) (items : List Item) (a : α) : Prop where
  ok : (∀ i ∈ items, i.Fits pl) → ∀ r, p (layout pl items ++ r) = .ok (a, r)
  neg : ∀ pre s post n rest, items = pre ++ .text s :: post → (∀ i ∈ pre, i.Fits pl) →
    n < 0 → IsLong pl n → p (layout pl pre ++ (longBytes pl n ++ rest)) = .error .structError

namespace Reads

theorem pure (a : α) : Reads pl (pure a : P α) [] a :=
  ⟨fun _ _ => rfl, fun pre s post n rest h => by simp at h⟩

/-- Readers of items without strings. -/
theorem of_inverts {p : P α} {w : α → Out} {V : α → Prop} {items : List Item} {a : α}
    (h : Inverts p w V) (hv : V a) (hw : Writes pl (w a) items) (ht : ∀ s, Item.text s ∉ items) :
    Reads pl p items a where
  ok hf r := h.complete r hv ((hw _).2 ⟨hf, rfl⟩)
  neg pre s post n rest he := absurd (he ▸ by simp) (ht s)

theorem congr {p : P α} {i j : List Item} {a : α} (h : Reads pl p i a) (e : i = j) :
    Reads pl p j a := e ▸ h

theorem readString (s : Bytes) : Reads pl (readString pl) [.text s] s where
  ok hf r := (readString_inv pl).complete r trivial ((writeString_writes s _).2 ⟨hf, rfl⟩)
  neg pre s' post n rest he hf hn hl := by
    obtain rfl : pre = [] := by
      rcases pre with _ | ⟨a, l⟩
      · rfl
      · simp at he
    have := (readLong_inv pl).complete rest trivial
      ((writeLong_writes n _).2 ⟨by simpa [Item.Fits] using hl, rfl⟩)
    simp only [layout_cons, layout_nil, Item.bytes, List.append_nil] at this
    unfold Bf2.readString
    rw [layout_nil, List.nil_append, P.bind_run, this]
    simp only [if_pos hn]
    rfl

theorem bind {p : P α} {f : α → P β} {i j : List Item} {a : α} {b : β} (hp : Reads pl p i a)
    (hf : Reads pl (f a) j b) : Reads pl (p >>= f) (i ++ j) b where
  ok h r := by
    rw [layout_append, List.append_assoc, P.bind_run,
      hp.ok (fun x hx => h x (List.mem_append_left _ hx))]
    exact hf.ok (fun x hx => h x (List.mem_append_right _ hx)) r
  neg pre s post n rest he hfit hn hl := by
    rw [P.bind_run]
    rcases List.append_eq_append_iff.1 he with ⟨m, hm, hm'⟩ | ⟨m, hm, hm'⟩
    · -- pre = i ++ m
      subst hm
      rw [layout_append, List.append_assoc,
        hp.ok (fun x hx => hfit x (List.mem_append_left _ hx))]
      exact hf.neg m s post n rest hm' (fun x hx => hfit x (List.mem_append_right _ hx)) hn hl
    · rcases m with _ | ⟨x, m⟩
      · rw [List.append_nil] at hm
        subst hm
        have h0 := hp.ok hfit (longBytes pl n ++ rest)
        rw [h0]
        exact hf.neg [] s post n rest (by simpa using hm'.symm) (by simp) hn hl
      · rw [List.cons_append, List.cons.injEq] at hm'
        rw [hp.neg pre s m n rest (by rw [hm, hm'.1]) hfit hn hl]

theorem bind_pure {p : P α} {f : α → β} {i : List Item} {a : α} (hp : Reads pl p i a) :
    Reads pl (p >>= fun x => Pure.pure (f x)) i (f a) :=
  (hp.bind (pure (f a))).congr (List.append_nil _)

theorem rep {p : P α} {g : α → List Item} {l : List α} (h : ∀ a ∈ l, Reads pl p (g a) a) :
    Reads pl (P.rep p l.length) (l.flatMap g) l := by
  induction l with
  | nil => exact pure _
  | cons a l ih =>
    exact (h a (by simp)).bind (ih fun x hx => h x (by simp [hx])).bind_pure

theorem each {f : α → P β} {g : β → List Item} {as : List α} {bs : List β}
    (h : List.Forall₂ (fun a b => Reads pl (f a) (g b) b) as bs) :
    Reads pl (P.each f as) (bs.flatMap g) bs := by
  induction h with
  | nil => exact pure _
  | cons hab _ ih => exact hab.bind ih.bind_pure

theorem long (v : Int) : Reads pl (readLong pl) [.long v] v :=
  of_inverts (readLong_inv pl) trivial (writeLong_writes v) (by simp)

end Reads

theorem Vec3.no_text (v : Vec3 W) (s : Bytes) : Item.text s ∉ v.items := by
  simp [Vec3.items]

theorem optVec3_no_text (o : Option (Vec3 W)) (s : Bytes) :
    Item.text s ∉ optItems Vec3.items o := by
  cases o with
  | none => simp [optItems]
  | some v => exact v.no_text s

theorem Mat4.no_text (m : Mat4 W) (s : Bytes) : Item.text s ∉ m.items := by
  simp [Mat4.items]

theorem Lod.no_text (k : Kind) (l : Lod W) (s : Bytes) : Item.text s ∉ l.nodeItems k := by
  unfold Lod.nodeItems
  split
  · simp [Vec3.no_text, optVec3_no_text, Rig.items, Bone.items, Mat4.no_text]
  · simp [Vec3.no_text, optVec3_no_text, Mat4.no_text]

theorem loadMat_reads {k : Kind} {v : Int} {m : Mat W} (h : MatWF k v m) :
    Reads pl (loadMat pl v k) m.items m := by
  have ha : Reads pl (loadAlphamode pl k) (optItems (fun a => [.long a]) m.alphamode)
      m.alphamode := by
    have := h.alphamode
    unfold loadAlphamode
    cases hk : k.isSkinned with
    | true =>
      rw [hk] at this
      cases ho : m.alphamode with
      | some a => rw [ho] at this; cases this
      | none => exact .pure _
    | false =>
      rw [hk] at this
      cases ho : m.alphamode with
      | none => rw [ho] at this; cases this
      | some a => exact (Reads.long a).bind_pure
  have hm : Reads pl (P.rep (readString pl) m.mapnum.toNat) (m.maps.map .text) m.maps := by
    rw [← h.maps]
    exact (Reads.rep (g := fun s => [.text s]) fun s _ => .readString s).congr
      (by induction m.maps <;> simp_all)
  have f3 : ∀ u : Vec3 W, Reads pl (readFloat3 pl) u.items u := fun u =>
    .of_inverts (readFloat3_inv pl) trivial (writeFloat3_writes u) u.no_text
  have key : Reads pl (loadMat pl v k)
      (optItems (fun a => [.long a]) m.alphamode ++ ([.text m.fxfile] ++ ([.text m.technique] ++
        ([.long m.mapnum] ++ (m.maps.map .text ++ ([.long m.vstart] ++ ([.long m.istart] ++
        ([.long m.inum] ++ ([.long m.vnum] ++ ([.long m.u4] ++ ([.long m.u5] ++
        (optItems Vec3.items m.mmin ++ optItems Vec3.items m.mmax)))))))))))) m := by
    unfold loadMat
    refine ha.bind <| (Reads.readString _).bind <| (Reads.readString _).bind <|
      (Reads.long _).bind <| hm.bind <| (Reads.long _).bind <| (Reads.long _).bind <|
      (Reads.long _).bind <| (Reads.long _).bind <| (Reads.long _).bind <| (Reads.long _).bind ?_
    have h1 := h.mmin
    have h2 := h.mmax
    obtain ⟨m1, m2, m3, m4, m5, m6, m7, m8, m9, m10, m11, mn, mx⟩ := m
    cases hk : (!k.isSkinned && v == 11) with
    | true =>
      rw [hk] at h1 h2
      cases mn with
      | none => cases h1
      | some a =>
        cases mx with
        | none => cases h2
        | some b => exact (f3 a).bind ((f3 b).bind_pure)
    | false =>
      rw [hk] at h1 h2
      cases mn with
      | some a => cases h1
      | none =>
        cases mx with
        | some b => cases h2
        | none => exact .pure _
  exact key.congr (by simp [Mat.items])

theorem loadLodMaterials_reads {k : Kind} {v : Int} {l0 l : Lod W} (h : LodMatsWF k v l)
    (h0 : { l0 with matnum := l.matnum, materials := l.materials } = l) :
    Reads pl (loadLodMaterials pl v k l0) l.matItems l := by
  have hr : Reads pl (P.rep (loadMat pl v k) l.matnum.toNat) (l.materials.flatMap Mat.items)
      l.materials := by
    rw [← h.materials]; exact .rep fun m hm => loadMat_reads (h.each m hm)
  have key : Reads pl (loadLodMaterials pl v k l0) ([.long l.matnum] ++
      l.materials.flatMap Mat.items) { l0 with matnum := l.matnum, materials := l.materials } := by
    unfold loadLodMaterials
    exact (Reads.long _).bind hr.bind_pure
  rw [h0] at key
  exact key

theorem loadBody_reads {m : Mesh W} (h : MeshWF m) :
    Reads pl (loadBody pl m.kind) m.items m := by
  have r1 : Reads pl (loadHead pl) m.head.items m.head :=
    .of_inverts (loadHead_inv pl) trivial (exportHead_writes _) (by simp [Head.items])
  have r2 : Reads pl readByte [.byte m.u1] m.u1 :=
    .of_inverts readByte_inv trivial (writeByte_writes _) (by simp)
  have r4 : Reads pl (P.rep (readLong pl) m.geomnum.toNat) (m.geoms.map fun g => .long g.lodnum)
      (m.geoms.map (·.lodnum)) := by
    refine (Reads.of_inverts ((readLong_inv pl).rep _) ⟨by simpa using h.geoms, by simp⟩
      (.each_map writeLong_writes) (by simp)).congr (by simp)
  have r6 : Reads pl (P.rep (loadVAttr pl) m.vertattribnum.toNat)
      (m.vattrs.flatMap VAttr.items) m.vattrs :=
    .of_inverts ((loadVAttr_inv pl).rep _) ⟨h.vattrs, by simp⟩
      (.each fun a _ => exportVAttr_writes a) (by simp [VAttr.items])
  have r10 : Reads pl (loadVertices pl m.vertstride m.vertformat m.vertnum)
      (m.vertices.map .word) m.vertices :=
    .of_inverts (loadVertices_inv pl _ _ _) ⟨h.vertformat, h.vertices, h.not_one⟩
      (.each_map writeFloat_writes) (by simp)
  have r12 : Reads pl (readShort pl m.indexnum) (m.index.elems.map .short) m.index :=
    .of_inverts (readShort_inv pl _) h.index (indexBytes_writes _) (by simp)
  have r13 : Reads pl (loadU2 pl m.kind) (if m.kind.isSkinned then [] else [.long m.u2]) m.u2 := by
    have := h.u2
    unfold loadU2
    cases hk : m.kind.isSkinned with
    | true => rw [this hk]; exact .pure _
    | false => exact .long _
  have r14 : Reads pl (P.each (loadGeomNodes pl m.head.version m.kind) (m.geoms.map (·.lodnum)))
      (m.geoms.flatMap fun g => g.lods.flatMap (Lod.nodeItems m.kind)) (m.geoms.map Geom.strip) := by
    have := Reads.each (pl := pl) (f := loadGeomNodes pl m.head.version m.kind)
      (g := fun g : Geom W => g.lods.flatMap (Lod.nodeItems m.kind))
      (as := m.geoms.map (·.lodnum)) (bs := m.geoms.map Geom.strip) ?_
    · refine this.congr ?_
      rw [List.flatMap_map]
      refine congrArg (fun f => m.geoms.flatMap f) (funext fun g => ?_)
      simp only [Geom.strip, List.flatMap_map]
      rfl
    · rw [List.forall₂_map_left_iff, List.forall₂_map_right_iff, List.forall₂_same]
      intro g hg
      have hw := h.geom g hg
      have hs : ∀ l ∈ g.strip.lods, LodNodesWF m.kind m.head.version l ∧ l.matnum = 0 ∧
          l.materials = [] := by
        intro l hl
        simp only [Geom.strip, List.mem_map] at hl
        obtain ⟨l, hl, rfl⟩ := hl
        have r3 := hw.nodes l hl
        exact ⟨⟨r3.1, r3.2, r3.3, r3.4, r3.5, r3.6⟩, rfl, rfl⟩
      refine .of_inverts (loadGeomNodes_inv pl _ _ _) ⟨rfl, by simpa [Geom.strip] using hw.lods, hs⟩
        (.each fun l hl => exportLodNodes_writes (hs l hl).1) (by simp [Lod.no_text])
  have r15 : Reads pl (P.each (loadGeomMaterials pl m.head.version m.kind)
      (m.geoms.map Geom.strip)) (m.geoms.flatMap fun g => g.lods.flatMap Lod.matItems) m.geoms := by
    refine Reads.each (g := fun g : Geom W => g.lods.flatMap Lod.matItems) ?_
    rw [List.forall₂_map_left_iff, List.forall₂_same]
    intro g hg
    have hw := h.geom g hg
    unfold loadGeomMaterials
    refine Reads.bind_pure (f := fun ls => { g.strip with lods := ls }) (a := g.lods)
      (Reads.each ?_)
    simp only [Geom.strip]
    rw [List.forall₂_map_left_iff, List.forall₂_same]
    exact fun l hl => loadLodMaterials_reads (hw.mats l hl) rfl
  have key : Reads pl (loadBody pl m.kind)
      (m.head.items ++ ([.byte m.u1] ++ ([.long m.geomnum] ++
        ((m.geoms.map fun g => .long g.lodnum) ++ ([.long m.vertattribnum] ++
        (m.vattrs.flatMap VAttr.items ++ ([.long m.vertformat] ++ ([.long m.vertstride] ++
        ([.long m.vertnum] ++ (m.vertices.map .word ++ ([.long m.indexnum] ++
        (m.index.elems.map .short ++ ((if m.kind.isSkinned then [] else [.long m.u2]) ++
        ((m.geoms.flatMap fun g => g.lods.flatMap (Lod.nodeItems m.kind)) ++
        (m.geoms.flatMap fun g => g.lods.flatMap Lod.matItems))))))))))))))) m := by
    unfold loadBody
    exact r1.bind <| r2.bind <| (Reads.long _).bind <| r4.bind <|
      (Reads.long _).bind <| r6.bind <| (Reads.long _).bind <|
      (Reads.long _).bind <| (Reads.long _).bind <| r10.bind <|
      (Reads.long _).bind <| r12.bind <| r13.bind <| r14.bind <| r15.bind_pure
  refine key.congr ?_
  simp only [Mesh.items, Preamble.items, Mesh.preamble, List.map_map, Function.comp_def,
    List.append_assoc, List.cons_append, List.nil_append]

end Bf2
