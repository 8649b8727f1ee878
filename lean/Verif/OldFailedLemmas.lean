import Verif.FailedLemmas
import Verif.OldHistoryLemmas

/-! # Lemmas: what a save of the deprecated module that raises leaves is too short for the loaders -/

namespace Bf2

variable {F : Type} [FCodec F]

local notation "W" => BitVec 32

namespace Follows

theorem oldHead (pl : Plat) (h : Head) : Follows (loadHead pl) (oldWriteHead pl h) h := by
  by_cases hr : ∀ v ∈ [h.u1, h.version, h.u3, h.u4, h.u5], IsLong pl v
  · rw [oldWriteHead_eq hr]
    exact head pl h
  · have he : oldWriteHead pl h = .raise .structError := by
      unfold oldWriteHead
      rw [← packLongs_err] at hr
      unfold packLongs at hr ⊢
      split_ifs at hr ⊢
      · exact absurd rfl hr
      · rfl
    rw [he]
    refine ⟨fun h => (by cases h), fun _ => ?_⟩
    show loadHead pl [] = _
    unfold loadHead
    rw [P.bind_run, readLong_nil]

theorem oldVAttr (pl : Plat) (a : VAttr) : Follows (loadVAttr pl) (oldWriteVAttr pl a) a.unsigned := by
  by_cases hr : ∀ v ∈ [a.flag, a.offset, a.vartype, a.usage], IsSShort v
  · simp only [List.forall_mem_cons, List.not_mem_nil, false_implies, implies_true, and_true] at hr
    obtain ⟨h1, h2, h3, h4⟩ := hr
    have hs : a.unsigned.signed = a := by
      unfold VAttr.unsigned VAttr.signed
      simp only [signed_unsigned h1, signed_unsigned h2, signed_unsigned h3, signed_unsigned h4]
    have he : oldWriteVAttr pl a = exportVAttr pl a.unsigned := by
      rw [← oldWriteVAttr_eq ⟨unsigned_short h1, unsigned_short h2, unsigned_short h3, unsigned_short h4⟩, hs]
    rw [he]
    exact vattr pl _
  · have he : oldWriteVAttr pl a = .raise .structError := by
      unfold oldWriteVAttr
      rw [← packSignedShorts_err (pl := pl)] at hr
      unfold packSignedShorts at hr ⊢
      split_ifs at hr ⊢
      · exact absurd rfl hr
      · rfl
    rw [he]
    exact ⟨fun h => (by cases h), fun _ => rfl⟩

theorem oldIndex (pl : Plat) (n : Int) (l : List Int) (h : (l.length : Int) = n) :
    Follows (readShort pl n) (packShorts pl l) (shownIndex l) := by
  subst h
  unfold readShort readCount
  rw [if_neg (by omega)]
  by_cases hr : ∀ v ∈ l, IsShort v
  · rw [packShorts_eq hr, ← Out.seq_nil (Out.each _ l)]
    split_ifs with h1
    · obtain ⟨v, rfl⟩ := List.length_eq_one_iff.1 (show l.length = 1 by omega)
      refine seq (a := v) ?_ (pure _)
      show Follows _ ((writeShort pl v).seq .nil) v
      rw [Out.seq_nil]
      exact short pl v
    · have : shownIndex l = .many l := by
        rcases l with _ | ⟨a, _ | ⟨b, l⟩⟩
        · rfl
        · simp at h1
        · rfl
      rw [this]
      exact seq (rep_self (by simp) fun v _ => short pl v) (pure _)
  · have he : packShorts pl l = .raise .structError := by
      rw [← packShorts_err (pl := pl)] at hr
      unfold packShorts at hr ⊢
      split_ifs at hr ⊢
      · exact absurd rfl hr
      · rfl
    rw [he]
    refine ⟨fun h => (by cases h), fun _ => ?_⟩
    have hn : readShort1 pl [] = .error .structError := rfl
    show (if _ then _ else _ : P _) [] = _
    split_ifs with h1
    · rw [P.bind_run, hn]
    · rcases l with _ | ⟨a, l⟩
      · exact absurd (by simp) hr
      · rw [P.bind_run]
        have : P.rep (readShort1 pl) ((a :: l).length : Int).toNat [] = .error .structError := by
          show P.rep (readShort1 pl) (l.length + 1) [] = _
          unfold P.rep
          rw [P.bind_run, hn]
        rw [this]

theorem oldLods (pl : Plat) (v : Int) (k : Kind) (l : OldLod F) (h : OldLodWF k v l) :
    oldWriteLodNodes pl v k l = exportLodNodes pl v k (l.shown.map FCodec.pack) := by
  have h1 := oldWriteLodNodes_eq (pl := pl) h.shown.1 0
  rw [h.shown_old] at h1
  rw [← exportLodNodes_map]
  have h2 : l.shown.lastNodes = l.shown := by
    rw [Lod.lastNodes_eq_iff]
    unfold SameNodes OldLod.shown
    rcases l.nodes with _ | n <;> simp +contextual
  rw [h2] at h1
  exact h1

theorem oldMats (pl : Plat) (v : Int) (k : Kind) (l : OldLod F) :
    oldWriteLodMaterials pl v k l = exportLodMaterials pl v k (l.shown.map FCodec.pack) := by
  rw [← exportLodMaterials_map]
  rfl

theorem oldFloats (pl : Plat) (l : List F) {a b c : Int} (h0 : b ≠ 0)
    (h : (l.length : Int) = intDivMul a b c) (h1 : l.length ≠ 1) :
    Follows (loadVertices (F := W) pl a b c) (packFloats pl l) (l.map FCodec.pack) := by
  have he : packFloats pl l = Out.each (writeFloat (F := W) pl) (l.map FCodec.pack) := by
    rw [packFloats_eq, Bf2.each_map]
    rfl
  rw [he]
  exact floats pl _ h0 (by simpa using h) (by simpa using h1)

theorem oldMesh (pl : Plat) (o : OldMesh F) (h : OldWF o) :
    Follows (loadBody (F := W) pl o.kind) (oldSave pl o) (o.shown.map FCodec.pack) := by
  have hm : MeshWF (o.shown.map (FCodec.pack : F → W)) := h.shown.map _
  have e1 : Out.table (fun g : OldGeom F => writeLong pl g.lodnum) o.geoms o.geomnum =
      .each (fun g : Geom W => writeLong pl g.lodnum) (o.shown.map FCodec.pack).geoms := by
    rw [table_eq h.geoms]
    show _ = Out.each _ ((o.geoms.map OldGeom.shown).map (Geom.map FCodec.pack))
    rw [Bf2.each_map, Bf2.each_map]
    rfl
  have e2 : Out.each (fun g : OldGeom F => .each (oldWriteLodNodes pl o.head.version o.kind) g.lods) o.geoms =
      .each (fun g : Geom W => .each (exportLodNodes pl o.head.version o.kind) g.lods)
        (o.shown.map FCodec.pack).geoms := by
    show _ = Out.each _ ((o.geoms.map OldGeom.shown).map (Geom.map FCodec.pack))
    rw [Bf2.each_map, Bf2.each_map]
    refine Bf2.each_congr fun g hg => ?_
    show _ = Out.each _ ((g.lods.map OldLod.shown).map (Lod.map FCodec.pack))
    rw [Bf2.each_map, Bf2.each_map]
    exact Bf2.each_congr fun l hl => oldLods pl _ _ l (h.lod g hg l hl)
  have e3 : Out.each (fun g : OldGeom F => .each (oldWriteLodMaterials pl o.head.version o.kind) g.lods) o.geoms =
      .each (fun g : Geom W => .each (exportLodMaterials pl o.head.version o.kind) g.lods)
        (o.shown.map FCodec.pack).geoms := by
    show _ = Out.each _ ((o.geoms.map OldGeom.shown).map (Geom.map FCodec.pack))
    rw [Bf2.each_map, Bf2.each_map]
    refine Bf2.each_congr fun g hg => ?_
    show _ = Out.each _ ((g.lods.map OldLod.shown).map (Lod.map FCodec.pack))
    rw [Bf2.each_map, Bf2.each_map]
    exact Bf2.each_congr fun l hl => oldMats pl _ _ l
  unfold loadBody oldSave
  rw [e1, e2, e3, table_eq h.vattrs]
  refine all (oldHead pl _) <| all (byte _) <| all (long pl _) <|
    all (rep (g := fun g : Geom W => g.lodnum) hm.geoms fun g _ => long pl _) <|
    all (long pl _) <| all (rep (g := VAttr.unsigned) h.vattrs fun a _ => oldVAttr pl a) <|
    all (long pl _) <| all (long pl _) <| all (long pl _) <|
    all (oldFloats pl _ h.vertformat h.vertices h.not_one) <| all (long pl _) <|
    all (oldIndex pl _ _ h.index) <| all (a := o.u2) ?_ <|
    all (each (d := fun g : Geom W => g.lodnum)
      (g := fun g => (⟨g.lodnum, g.lods.map bare⟩ : Geom W)) fun g hg => ?_) <|
    all (a := (o.shown.map FCodec.pack).geoms) ?_ <| pure_all _
  · have hu := h.u2
    unfold loadU2
    split_ifs with hk
    · rw [hu hk]
      exact pure _
    · exact long pl _
  · unfold loadGeomNodes
    rw [← Out.seq_nil (Out.each _ g.lods)]
    exact seq (rep (hm.geom g hg).lods fun l hl => lodNodes pl _ _ l ((hm.geom g hg).nodes l hl)) (pure _)
  · have := each (f := loadGeomMaterials pl o.head.version o.kind)
      (w := fun g : Geom W => .each (exportLodMaterials pl o.head.version o.kind) g.lods)
      (d := fun g => (⟨g.lodnum, g.lods.map bare⟩ : Geom W)) (g := id)
      (l := (o.shown.map FCodec.pack).geoms) ?_
    · simpa using this
    · intro g hg
      unfold loadGeomMaterials
      rw [← Out.seq_nil (Out.each _ g.lods)]
      have := each (f := loadLodMaterials pl o.head.version o.kind)
        (w := exportLodMaterials pl o.head.version o.kind) (d := bare) (g := id) (l := g.lods)
        fun l hl => lodMats pl _ _ l ((hm.geom g hg).mats l hl)
      rw [List.map_id] at this
      exact seq this (pure _)

/-- The three numbers in front of the vertices. -/
def front (pl : Plat) : P (Int × Int × Int) := do
  let _ ← loadHead pl
  let _ ← readByte
  let n ← readLong pl
  let _ ← P.rep (readLong pl) n.toNat
  let n ← readLong pl
  let _ ← P.rep (loadVAttr pl) n.toNat
  let a ← readLong pl
  let b ← readLong pl
  let c ← readLong pl
  Pure.pure (a, b, c)

omit [FCodec F] in
theorem oldFront (pl : Plat) (o : OldMesh F) (h : OldWF o) : Follows (front pl)
    (.all [oldWriteHead pl o.head, writeByte o.u1,
      writeLong pl o.geomnum, .table (fun g => writeLong pl g.lodnum) o.geoms o.geomnum,
      writeLong pl o.vertattribnum, .table (oldWriteVAttr pl) o.vattrs o.vertattribnum,
      writeLong pl o.vertformat, writeLong pl o.vertstride, writeLong pl o.vertnum])
    (o.vertformat, o.vertstride, o.vertnum) := by
  unfold front
  rw [table_eq h.geoms, table_eq h.vattrs]
  exact all (oldHead pl _) <| all (byte _) <| all (long pl _) <|
    all (rep (g := fun g : OldGeom F => g.lodnum) h.geoms fun g _ => long pl _) <|
    all (long pl _) <| all (rep (g := VAttr.unsigned) h.vattrs fun a _ => oldVAttr pl a) <|
    all (long pl _) <| all (long pl _) <| all (long pl _) <| pure_all _

end Follows

theorem seq_all (a : List Out) (b : List Out) : Out.all (a ++ b) = (Out.all a).seq (Out.all b) := by
  induction a with
  | nil => rfl
  | cons w a ih =>
    show w.seq (Out.all (a ++ b)) = (w.seq (Out.all a)).seq (Out.all b)
    rw [ih]
    rcases w with ⟨bs, _ | e⟩
    · rcases Out.all a with ⟨cs, _ | e⟩
      · simp only [Out.mk_none_seq, List.append_assoc]
      · simp only [Out.mk_none_seq, Out.mk_some_seq]
    · simp only [Out.mk_some_seq]

theorem rep_count {α : Type} {p : P α} {n : Nat} {s r : Bytes} {l : List α}
    (h : P.rep p n s = .ok (l, r)) : l.length = n := by
  induction n generalizing s l r with
  | zero =>
    cases h
    rfl
  | succ n ih =>
    unfold P.rep at h
    simp only [P.bind_ok, P.pure_ok] at h
    obtain ⟨a, s1, -, l', s2, h2, rfl, -⟩ := h
    simp [ih h2]

/-- However far a save gets, a deprecated loader that gets through does not find one vertex float. -/
theorem OldWF.not_one_read {pl : Plat} {o o' : OldMesh F} (h : OldWF o) {k : Kind} {r : Bytes}
    (hl : oldLoadBody pl k (oldSave pl o).bytes = .ok (o', r)) : o'.vertices.length ≠ 1 := by
  have hf := Follows.oldFront pl o h
  obtain ⟨rest, hs⟩ : ∃ rest, oldSave pl o = (Out.all [oldWriteHead pl o.head, writeByte o.u1,
      writeLong pl o.geomnum, .table (fun g => writeLong pl g.lodnum) o.geoms o.geomnum,
      writeLong pl o.vertattribnum, .table (oldWriteVAttr pl) o.vattrs o.vertattribnum,
      writeLong pl o.vertformat, writeLong pl o.vertstride, writeLong pl o.vertnum]).seq rest :=
    ⟨.all [packFloats pl o.vertices,
      writeLong pl o.indexnum, packShorts pl o.index,
      if o.kind.isSkinned then .nil else writeLong pl o.u2,
      .each (fun g => .each (oldWriteLodNodes pl o.head.version o.kind) g.lods) o.geoms,
      .each (fun g => .each (oldWriteLodMaterials pl o.head.version o.kind) g.lods) o.geoms], by
      rw [← seq_all]; unfold oldSave; simp only [List.cons_append, List.nil_append]⟩
  rw [hs] at hl
  generalize Out.all [oldWriteHead pl o.head, writeByte o.u1,
      writeLong pl o.geomnum, .table (fun g => writeLong pl g.lodnum) o.geoms o.geomnum,
      writeLong pl o.vertattribnum, .table (oldWriteVAttr pl) o.vattrs o.vertattribnum,
      writeLong pl o.vertformat, writeLong pl o.vertstride, writeLong pl o.vertnum] = w at hf hl
  unfold oldLoadBody at hl
  simp only [P.bind_ok] at hl
  obtain ⟨head, s1, h1, u1, s2, h2, gn, s3, h3, lns, s4, h4, vn, s5, h5, va, s6, h6, vf, s7, h7,
    vst, s8, h8, vnum, s9, h9, vs, s10, h10, inum, s11, h11, ix, s12, h12, u2, s13, h13, g0, s14,
    h14, ⟨st, gs⟩, s15, h15, h16⟩ := hl
  simp only [P.pure_ok] at h16
  obtain ⟨rfl, rfl⟩ := h16
  rw [P.rep_map (oldLoadVAttr_eq pl), P.map_ok] at h6
  obtain ⟨va', h6, rfl⟩ := h6
  have hp : Follows.front pl (w.seq rest).bytes = .ok ((vf, vst, vnum), s9) := by
    unfold Follows.front
    simp only [P.bind_run, h1, h2, h3, h4, h5, h6, h7, h8, h9]
    rfl
  have key : (vf, vst, vnum) = (o.vertformat, o.vertstride, o.vertnum) := by
    rcases w with ⟨bs, _ | e⟩
    · rw [Out.mk_none_seq, hf.ok rfl] at hp
      cases hp
      rfl
    · rw [Out.mk_some_seq, hf.err (by simp)] at hp
      cases hp
  simp only [Prod.mk.injEq] at key
  obtain ⟨rfl, rfl, rfl⟩ := key
  simp only
  unfold oldLoadVertices dataNum at h10
  rw [if_neg h.vertformat] at h10
  simp only at h10
  unfold readTuple at h10
  have hv := h.vertices
  rw [if_neg (by omega)] at h10
  have := rep_count h10
  have := h.not_one
  omega

/-- What a save that raises leaves makes both loaders raise. -/
theorem OldWF.failed {pl : Plat} {o : OldMesh F} (h : OldWF o) (he : (oldSave pl o).err ≠ none) :
    load (F := F) pl o.kind (oldSave pl o).bytes = .error .structError ∧
    ∀ o' : OldMesh F, oldLoad pl o.kind (oldSave pl o).bytes ≠ .ok o' := by
  have hb := (Follows.oldMesh pl o h).err he
  refine ⟨?_, fun o' ho => ?_⟩
  · rw [load_map, load_error (k := o.kind) hb]
    rfl
  · unfold oldLoad at ho
    rcases hx : oldLoadBody (F := F) pl o.kind (oldSave pl o).bytes with e | ⟨o'', r⟩
    · rw [hx] at ho
      cases ho
    · have h1 := h.not_one_read hx
      obtain ⟨m, hm, -⟩ := (oldLoadBody_ok hx).resolve_left h1
      rw [loadBody_map, P.map_run, hb] at hm
      cases hm

/-! ## What a save raises -/

namespace PackOnly
variable {t : Prop}

theorem oldMesh {pl : Plat} {o : OldMesh F} (h : OldWF o) : PackOnly False (oldSave pl o) := by
  have hp : ∀ {c : Prop} [Decidable c] {b : Bytes}, PackOnly False (if c then .write b else .raise .structError) := by
    intro c _ b
    split_ifs
    · exact of_none rfl
    · intro e he
      cases he
      exact .inl rfl
  unfold oldSave
  rw [table_eq h.geoms, table_eq h.vattrs]
  refine seq hp <| seq (byte _) <| seq (long pl _) <| seq (each fun g _ => long pl _) <| seq (long pl _) <|
    seq (each fun a _ => hp) <|
    seq (long pl _) <| seq (long pl _) <| seq (long pl _) <| seq (of_none rfl) <|
    seq (long pl _) <| seq hp <| seq (by split_ifs; exact nil; exact long pl _) <|
    seq (each fun g hg => each fun l hl => ?_) <|
    seq (each fun g hg => each fun l hl => seq (long pl _) <|
      seq (each fun a ha => mat ((h.lod g hg l hl).each a ha)) nil) nil
  rw [Follows.oldLods pl _ _ l (h.lod g hg l hl), ← exportLodNodes_map]
  exact lodNodes (h.lod g hg l hl).shown.1

end PackOnly

end Bf2
