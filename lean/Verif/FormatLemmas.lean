import Verif.MapLemmas
import Verif.FloatCodec
import Verif.LayoutLemmas

/-! # Further facts about files: floats of a mesh, truncation, integer ranges -/

namespace Bf2

variable {F G : Type}

/-! ## Maps that agree on the floats of a mesh -/

theorem flatMap_congr_of {α β γ : Type} {l : List α} {fl : α → List γ} {f g : α → β}
    {P : γ → Prop} (h : ∀ a ∈ l, (∀ x ∈ fl a, P x) → f a = g a) (hP : ∀ x ∈ l.flatMap fl, P x) :
    l.map f = l.map g :=
  List.map_congr_left fun a ha => h a ha fun x hx => hP x (List.mem_flatMap.2 ⟨a, ha, hx⟩)

theorem Vec3.map_congr {f g : F → G} {v : Vec3 F} (h : ∀ x ∈ v.floats, f x = g x) :
    v.map f = v.map g := by
  simp only [Vec3.floats, List.mem_cons, List.not_mem_nil, or_false, forall_eq_or_imp,
    forall_eq] at h
  simp only [Vec3.map, h.1, h.2.1, h.2.2]

theorem Vec4.map_congr {f g : F → G} {v : Vec4 F} (h : ∀ x ∈ v.floats, f x = g x) :
    v.map f = v.map g := by
  simp only [Vec4.floats, List.mem_cons, List.not_mem_nil, or_false, forall_eq_or_imp,
    forall_eq] at h
  simp only [Vec4.map, h.1, h.2.1, h.2.2.1, h.2.2.2]

theorem Mat4.map_congr {f g : F → G} {m : Mat4 F} (h : ∀ x ∈ m.floats, f x = g x) :
    m.map f = m.map g := by
  simp only [Mat4.floats, List.mem_append] at h
  simp only [Mat4.map]
  rw [Vec4.map_congr fun x hx => h x (.inl (.inl (.inl hx))),
    Vec4.map_congr fun x hx => h x (.inl (.inl (.inr hx))),
    Vec4.map_congr fun x hx => h x (.inl (.inr hx)), Vec4.map_congr fun x hx => h x (.inr hx)]

theorem opt_map_congr {f g : F → G} {o : Option (Vec3 F)} (h : ∀ x ∈ optFloats o, f x = g x) :
    o.map (Vec3.map f) = o.map (Vec3.map g) := by
  cases o with
  | none => rfl
  | some v => simp only [Option.map]; rw [Vec3.map_congr h]

theorem Mat.map_congr {f g : F → G} {m : Mat F} (h : ∀ x ∈ m.floats, f x = g x) :
    m.map f = m.map g := by
  simp only [Mat.floats, List.mem_append] at h
  simp only [Mat.map]
  rw [opt_map_congr fun x hx => h x (.inl hx), opt_map_congr fun x hx => h x (.inr hx)]

theorem Lod.map_congr {f g : F → G} {l : Lod F} (h : ∀ x ∈ l.nodeFloats, f x = g x)
    (h' : ∀ x ∈ l.materials.flatMap Mat.floats, f x = g x) : l.map f = l.map g := by
  simp only [Lod.nodeFloats, List.mem_append] at h
  simp only [Lod.map]
  rw [Vec3.map_congr fun x hx => h x (.inl (.inl (.inl (.inl hx)))),
    Vec3.map_congr fun x hx => h x (.inl (.inl (.inl (.inr hx)))),
    opt_map_congr fun x hx => h x (.inl (.inl (.inr hx)))]
  congr 1
  · refine flatMap_congr_of (fl := fun r => r.bones.flatMap fun b => b.matrix.floats)
      (P := fun x => f x = g x) (fun r _ hr => ?_) fun x hx => h x (.inl (.inr hx))
    simp only [Rig.map]; congr 1
    refine flatMap_congr_of (fl := fun b => b.matrix.floats)
      (P := fun x => f x = g x) (fun b _ hb => ?_) hr
    simp only [Bone.map]; rw [Mat4.map_congr hb]
  · exact flatMap_congr_of (P := fun x => f x = g x) (fun _ _ hb => Mat4.map_congr hb)
      fun x hx => h x (.inr hx)
  · exact flatMap_congr_of (P := fun x => f x = g x) (fun _ _ hb => Mat.map_congr hb) h'

theorem Mesh.map_congr {f g : F → G} {m : Mesh F} (h : ∀ x ∈ m.floats, f x = g x) :
    m.map f = m.map g := by
  simp only [Mesh.floats, List.mem_append] at h
  simp only [Mesh.map]
  congr 1
  · refine List.map_congr_left fun r hr => ?_
    simp only [Geom.map]; congr 1
    refine List.map_congr_left fun l hl => Lod.map_congr (fun x hx => h x (.inl (.inr ?_)))
      (fun x hx => h x (.inr ?_))
    · exact List.mem_flatMap.2 ⟨r, hr, List.mem_flatMap.2 ⟨l, hl, hx⟩⟩
    · exact List.mem_flatMap.2 ⟨r, hr, List.mem_flatMap.2 ⟨l, hl, hx⟩⟩
  · exact List.map_congr_left fun x hx => h x (.inl (.inl hx))

theorem Mat.map_id (m : Mat F) : m.map id = m := by
  obtain ⟨_, _, _, _, _, _, _, _, _, _, _, a, b⟩ := m
  cases a <;> cases b <;> rfl

theorem Lod.map_id (l : Lod F) : l.map id = l := by
  obtain ⟨_, _, p, _, rs, _, ns, _, ms⟩ := l
  have h1 : rs.map (Rig.map id) = rs := by
    conv_rhs => rw [← List.map_id rs]
    refine List.map_congr_left fun r _ => ?_
    obtain ⟨n, bs⟩ := r
    simp only [Rig.map]
    congr 1
    exact List.map_id bs
  have h2 : ms.map (Mat.map id) = ms := by
    conv_rhs => rw [← List.map_id ms]
    exact List.map_congr_left fun r _ => Mat.map_id r
  have h3 : ns.map (Mat4.map id) = ns := List.map_id ns
  simp only [Lod.map, h1, h2, h3]
  cases p <;> rfl

theorem Mesh.map_id (m : Mesh F) : m.map id = m := by
  cases m with | mk k h a b gs c d e f g vs =>
  have h1 : gs.map (Geom.map id) = gs := by
    conv_rhs => rw [← List.map_id gs]
    refine List.map_congr_left fun r _ => ?_
    obtain ⟨n, ls⟩ := r
    simp only [Geom.map, id]
    congr 1
    conv_rhs => rw [← List.map_id ls]
    exact List.map_congr_left fun r _ => Lod.map_id r
  simp only [Mesh.map, h1, List.map_id]

/-! ## Truncation -/

/-- On a prefix of an input it accepts, `p` returns the same value or runs out of bytes. -/
def Strict {α : Type} (p : P α) : Prop := ∀ s a r t, p s = .ok (a, r) → t <+: s →
  (∃ r', p t = .ok (a, r') ∧ r' <+: r) ∨ p t = .error .structError

namespace Strict
variable {α β : Type}

theorem pure (a : α) : Strict (pure a : P α) := by
  intro s b r t h ht
  rw [P.pure_ok] at h
  obtain ⟨rfl, rfl⟩ := h
  exact .inl ⟨t, rfl, ht⟩

theorem raise (e : Err) : Strict (P.raise e : P α) := fun _ _ _ _ h _ => by cases h

theorem bind {p : P α} {f : α → P β} (hp : Strict p) (hf : ∀ a, Strict (f a)) :
    Strict (p >>= f) := by
  intro s b r t h ht
  obtain ⟨a, s', h1, h2⟩ := P.bind_ok.1 h
  rw [P.bind_run]
  rcases hp s a s' t h1 ht with ⟨r', h3, h4⟩ | h3
  · rw [h3]; exact hf a s' b r r' h2 h4
  · rw [h3]; exact .inr rfl

theorem rep {p : P α} (hp : Strict p) (n : Nat) : Strict (P.rep p n) := by
  induction n with
  | zero => exact pure _
  | succ n ih => exact bind hp fun _ => bind ih fun _ => pure _

theorem each {f : α → P β} (hf : ∀ a, Strict (f a)) (l : List α) : Strict (P.each f l) := by
  induction l with
  | nil => exact pure _
  | cons a l ih => exact bind (hf a) fun _ => bind ih fun _ => pure _

theorem readBytes (n : Nat) : Strict (readBytes n) := by
  intro s a r t h ht
  obtain ⟨u, rfl⟩ := ht
  unfold Bf2.readBytes at *
  by_cases hn : n ≤ t.length
  · left
    rw [if_pos (by simp; omega)] at h
    rw [if_pos hn]
    simp only [Except.ok.injEq, Prod.mk.injEq] at h
    obtain ⟨rfl, rfl⟩ := h
    refine ⟨t.drop n, ?_, ?_⟩
    · rw [List.take_append_of_le_length hn]
    · rw [List.drop_append_of_le_length hn]; exact List.prefix_append _ _
  · right; rw [if_neg hn]

theorem readLong (pl : Plat) : Strict (readLong pl) := bind (readBytes _) fun _ => pure _
theorem readShort1 (pl : Plat) : Strict (readShort1 pl) := bind (readBytes _) fun _ => pure _
theorem readByte : Strict readByte := bind (readBytes _) fun _ => pure _

theorem ite {c : Prop} [Decidable c] {p q : P α} (hp : Strict p) (hq : Strict q) :
    Strict (if c then p else q) := by split <;> assumption

theorem readCount {p : P α} (hp : Strict p) (n : Int) : Strict (readCount p n) :=
  ite (raise _) (ite (bind hp fun _ => pure _) (bind (rep hp _) fun _ => pure _))

theorem readString (pl : Plat) : Strict (readString pl) :=
  bind (readLong pl) fun _ => ite (raise _) (readBytes _)

variable [FCodec F]

theorem readFloat1 (pl : Plat) : Strict (readFloat1 (F := F) pl) :=
  bind (readBytes _) fun _ => pure _

theorem readFloat3 (pl : Plat) : Strict (readFloat3 (F := F) pl) :=
  bind (readFloat1 pl) fun _ => bind (readFloat1 pl) fun _ => bind (readFloat1 pl) fun _ => pure _

theorem readFloat4 (pl : Plat) : Strict (readFloat4 (F := F) pl) :=
  bind (readFloat1 pl) fun _ => bind (readFloat1 pl) fun _ => bind (readFloat1 pl) fun _ =>
    bind (readFloat1 pl) fun _ => pure _

theorem readMatrix4 (pl : Plat) : Strict (readMatrix4 (F := F) pl) :=
  bind (readFloat4 pl) fun _ => bind (readFloat4 pl) fun _ => bind (readFloat4 pl) fun _ =>
    bind (readFloat4 pl) fun _ => pure _

theorem loadHead (pl : Plat) : Strict (loadHead pl) :=
  bind (readLong pl) fun _ => bind (readLong pl) fun _ => bind (readLong pl) fun _ =>
    bind (readLong pl) fun _ => bind (readLong pl) fun _ => pure _

theorem loadVAttr (pl : Plat) : Strict (loadVAttr pl) :=
  bind (readShort1 pl) fun _ => bind (readShort1 pl) fun _ => bind (readShort1 pl) fun _ =>
    bind (readShort1 pl) fun _ => pure _

theorem loadVertices (pl : Plat) (a b c : Int) : Strict (loadVertices (F := F) pl a b c) := by
  unfold Bf2.loadVertices
  split
  · exact raise _
  · refine bind (readCount (readFloat1 pl) _) fun x => ?_
    cases x
    · exact raise _
    · exact pure _

theorem loadRig (pl : Plat) : Strict (loadRig (F := F) pl) :=
  bind (readLong pl) fun _ =>
    bind (rep (bind (readLong pl) fun _ => bind (readMatrix4 pl) fun _ => pure _) _) fun _ => pure _

theorem loadLodNodes (pl : Plat) (v : Int) (k : Kind) : Strict (loadLodNodes (F := F) pl v k) :=
  bind (readFloat3 pl) fun _ => bind (readFloat3 pl) fun _ =>
    bind (ite (bind (readFloat3 pl) fun _ => pure _) (pure _)) fun _ =>
      ite (bind (readLong pl) fun _ => bind (rep (loadRig pl) _) fun _ => pure _)
        (bind (readLong pl) fun _ => bind (ite (pure _) (rep (readMatrix4 pl) _)) fun _ => pure _)

theorem loadMat (pl : Plat) (v : Int) (k : Kind) : Strict (loadMat (F := F) pl v k) :=
  bind (ite (pure _) (bind (readLong pl) fun _ => pure _)) fun _ =>
  bind (readString pl) fun _ => bind (readString pl) fun _ => bind (readLong pl) fun _ =>
  bind (rep (readString pl) _) fun _ => bind (readLong pl) fun _ => bind (readLong pl) fun _ =>
  bind (readLong pl) fun _ => bind (readLong pl) fun _ => bind (readLong pl) fun _ =>
  bind (readLong pl) fun _ =>
    ite (bind (readFloat3 pl) fun _ => bind (readFloat3 pl) fun _ => pure _) (pure _)

theorem loadBody (pl : Plat) (k : Kind) : Strict (loadBody (F := F) pl k) :=
  bind (loadHead pl) fun _ => bind readByte fun _ => bind (readLong pl) fun _ =>
  bind (rep (readLong pl) _) fun _ => bind (readLong pl) fun _ => bind (rep (loadVAttr pl) _) fun _ =>
  bind (readLong pl) fun _ => bind (readLong pl) fun _ => bind (readLong pl) fun _ =>
  bind (loadVertices pl _ _ _) fun _ => bind (readLong pl) fun _ =>
  bind (readCount (readShort1 pl) _) fun _ => bind (ite (pure _) (readLong pl)) fun _ =>
  bind (each (fun _ => bind (rep (loadLodNodes pl _ _) _) fun _ => pure _) _) fun _ =>
  bind (each (fun _ => bind (each (fun _ =>
    bind (readLong pl) fun _ => bind (rep (loadMat pl _ _) _) fun _ => pure _) _) fun _ => pure _) _)
  fun _ => pure _

end Strict

/-! ## Which meshes can be written -/

theorem seq_err {a b : Out} : (a.seq b).err = none ↔ a.err = none ∧ b.err = none := by
  obtain ⟨x, e⟩ := a
  cases e <;> simp

theorem all_nil_err : (Out.all []).err = none := rfl

theorem all_cons_err {a : Out} {l : List Out} :
    (Out.all (a :: l)).err = none ↔ a.err = none ∧ (Out.all l).err = none := seq_err

theorem each_err {α : Type} {f : α → Out} {l : List α} :
    (Out.each f l).err = none ↔ ∀ a ∈ l, (f a).err = none := by
  induction l with
  | nil => simp [Out.each]
  | cons a l ih => simp [Out.each, seq_err, ih]

theorem writeLong_err {pl : Plat} {v : Int} : (writeLong pl v).err = none ↔ IsLong pl v := by
  unfold writeLong IsLong
  rcases pl with ⟨l8, be⟩
  cases l8 <;> simp only [Plat.longSize, fitsSigned, Bool.and_eq_true, decide_eq_true_eq] <;>
    norm_num <;> split <;> simp <;> omega

theorem writeShort_err {pl : Plat} {v : Int} : (writeShort pl v).err = none ↔ IsShort v := by
  unfold writeShort IsShort fitsShort
  simp only [Bool.and_eq_true, decide_eq_true_eq]
  split <;> simp <;> omega

theorem writeByte_err {v : Int} : (writeByte v).err = none ↔ -128 ≤ v ∧ v ≤ 127 := by
  unfold writeByte fitsSigned
  simp only [Bool.and_eq_true, decide_eq_true_eq]
  norm_num
  split <;> simp <;> omega

theorem writeString_err {pl : Plat} {s : Bytes} :
    (writeString pl s).err = none ↔ IsLong pl s.length := by
  unfold writeString
  rw [all_cons_err, all_cons_err, writeLong_err]; simp [Out.all]

theorem isLong_zero (pl : Plat) : IsLong pl 0 := by unfold IsLong; split <;> omega

theorem indexBytes_err {pl : Plat} {x : OneOrMany Int} :
    (indexBytes pl x).err = none ↔ ∀ i ∈ x.elems, IsShort i := by
  cases x with
  | one a => simp [indexBytes, OneOrMany.elems, writeShort_err]
  | many l => simp [indexBytes, OneOrMany.elems, each_err, writeShort_err]

variable [FCodec F]

theorem writeFloat3_err {pl : Plat} {v : Vec3 F} : (writeFloat3 pl v).err = none := rfl
theorem writeMatrix4_err {pl : Plat} {v : Mat4 F} : (writeMatrix4 pl v).err = none := rfl

theorem writeFloat3?_err {pl : Plat} {o : Option (Vec3 F)} :
    (writeFloat3? pl o).err = none ↔ o.isSome = true := by
  cases o <;> simp [writeFloat3?, writeFloat3]

theorem writeLong?_err {pl : Plat} {o : Option Int} :
    (writeLong? pl o).err = none ↔ o.isSome = true ∧ ∀ v ∈ o, IsLong pl v := by
  cases o <;> simp [writeLong?, writeLong_err]

theorem exportMat_err {pl : Plat} {v : Int} {k : Kind} {m : Mat F} (h : MatWF k v m) :
    (exportMat pl v k m).err = none ↔ MatInRange pl m := by
  have ha : (if k.isSkinned then Out.nil else writeLong? pl m.alphamode).err = none ↔
      ∀ v ∈ m.alphamode, IsLong pl v := by
    have := h.alphamode
    cases hk : k.isSkinned with
    | true =>
      rw [hk] at this
      simp only [Bool.not_true, Option.isSome_eq_false_iff, Option.isNone_iff_eq_none] at this
      simp [this]
    | false =>
      rw [hk] at this
      simp only [Bool.false_eq_true, if_false, writeLong?_err, this]
      simp
  have hb : (if (!k.isSkinned && v == 11) = true then
      Out.all [writeFloat3? pl m.mmin, writeFloat3? pl m.mmax] else .nil).err = none := by
    split
    · next hk =>
      rw [all_cons_err, all_cons_err, writeFloat3?_err, writeFloat3?_err, h.mmin, h.mmax]
      exact ⟨hk, hk, rfl⟩
    · rfl
  unfold exportMat
  simp only [all_cons_err, each_err, ha, hb, writeLong_err, writeString_err, all_nil_err, and_true]
  constructor
  · rintro ⟨h1, h2, h3, h4, h5, h6, h7, h8, h9, h10, h11⟩
    exact ⟨h1, h2, h3, h4, h5, h6, h7, h8, h9, h10, h11⟩
  · rintro ⟨h1, h2, h3, h4, h5, h6, h7, h8, h9, h10, h11⟩
    exact ⟨h1, h2, h3, h4, h5, h6, h7, h8, h9, h10, h11⟩

theorem exportRig_err {pl : Plat} {r : Rig F} :
    (exportRig pl r).err = none ↔ IsLong pl r.bonenum ∧ ∀ b ∈ r.bones, IsLong pl b.id := by
  simp only [exportRig, exportBone, all_cons_err, each_err, writeLong_err, writeMatrix4_err,
    all_nil_err, and_true]

theorem exportLodNodes_err {pl : Plat} {v : Int} {k : Kind} {l : Lod F} (h : LodNodesWF k v l) :
    (exportLodNodes pl v k l).err = none ↔ IsLong pl l.rignum ∧ IsLong pl l.nodenum ∧
      ∀ r ∈ l.rigs, IsLong pl r.bonenum ∧ ∀ b ∈ r.bones, IsLong pl b.id := by
  have hp : (if v ≤ 6 then writeFloat3? pl l.pivot else Out.nil).err = none := by
    split
    · next hv => rw [writeFloat3?_err, h.pivot]; exact decide_eq_true hv
    · rfl
  unfold exportLodNodes
  simp only [all_cons_err, writeFloat3_err, hp, true_and, all_nil_err, and_true]
  cases hk : k.isSkinned with
  | true =>
    simp only [if_true, all_cons_err, writeLong_err, each_err, exportRig_err, h.no_nodes hk,
      isLong_zero, true_and, all_nil_err, and_true]
  | false =>
    have hr : l.rigs = [] := by
      have := h.rigs
      rw [h.no_rigs hk] at this
      exact List.eq_nil_of_length_eq_zero this
    have hn : (if k.isBundled = true then Out.nil else Out.each (writeMatrix4 pl) l.nodes).err
        = none := by
      split
      · rfl
      · rw [each_err]; intro _ _; exact writeMatrix4_err
    simp only [Bool.false_eq_true, if_false, all_cons_err, writeLong_err, hr, h.no_rigs hk,
      isLong_zero, true_and, hn, all_nil_err, and_true]
    simp

theorem fileBytes_err {pl : Plat} {m : Mesh W} (h : MeshWF m) :
    (fileBytes pl m).err = none ↔ InRange pl m := by
  have hu : (if m.kind.isSkinned = true then Out.nil else writeLong pl m.u2).err = none ↔
      IsLong pl m.u2 := by
    split
    · next hk => simp [h.u2 hk, isLong_zero]
    · exact writeLong_err
  have hl : ((Out.each (fun g => .each (exportLodNodes pl m.head.version m.kind) g.lods)
        m.geoms).err = none ∧
      (Out.each (fun g => .each (exportLodMaterials pl m.head.version m.kind) g.lods)
        m.geoms).err = none) ↔ ∀ g ∈ m.geoms, ∀ l ∈ g.lods, LodInRange pl l := by
    simp only [each_err, exportLodMaterials, all_cons_err, writeLong_err, all_nil_err, and_true]
    constructor
    · rintro ⟨h1, h2⟩ g hg l hl
      have hw := (h.geom g hg)
      obtain ⟨a, b, c⟩ := (exportLodNodes_err (hw.nodes l hl)).1 (h1 g hg l hl)
      obtain ⟨d, e⟩ := h2 g hg l hl
      exact ⟨a, fun r hr => (c r hr).1, fun r hr => (c r hr).2, b, d,
        fun x hx => (exportMat_err ((hw.mats l hl).each x hx)).1 (e x hx)⟩
    · intro hh
      refine ⟨fun g hg l hl => ?_, fun g hg l hl => ?_⟩
      · have := hh g hg l hl
        exact (exportLodNodes_err ((h.geom g hg).nodes l hl)).2
          ⟨this.rignum, this.nodenum, fun r hr => ⟨this.bonenum r hr, this.boneid r hr⟩⟩
      · have := hh g hg l hl
        exact ⟨this.matnum, fun x hx =>
          (exportMat_err (((h.geom g hg).mats l hl).each x hx)).2 (this.mats x hx)⟩
  have hv : (Out.each (writeFloat pl) m.vertices).err = none := by
    rw [each_err]; intro _ _; rfl
  simp only [each_err] at hl
  unfold fileBytes
  simp only [all_cons_err, all_nil_err, and_true, hl, hv, hu, indexBytes_err, each_err,
    writeLong_err, writeByte_err, exportHead, exportVAttr, writeShort_err, true_and]
  constructor
  · rintro ⟨⟨a1, a2, a3, a4, a5⟩, b, c, d, e, f, g, i, j, k, l, n, o⟩
    exact ⟨a1, a2, a3, a4, a5, b, c, d, e, f, g, i, j, k, l, n, o⟩
  · rintro ⟨a1, a2, a3, a4, a5, b, c, d, e, f, g, i, j, k, l, n, o⟩
    exact ⟨⟨a1, a2, a3, a4, a5⟩, b, c, d, e, f, g, i, j, k, l, n, o⟩

omit [FCodec F] in
theorem InRange.map {pl : Plat} {m : Mesh F} (h : InRange pl m) (f : F → G) :
    InRange pl (m.map f) where
  head_u1 := h.head_u1
  version := h.version
  head_u3 := h.head_u3
  head_u4 := h.head_u4
  head_u5 := h.head_u5
  u1 := h.u1
  geomnum := h.geomnum
  lodnum := by
    intro g hg
    obtain ⟨g', hg', rfl⟩ := List.mem_map.1 hg
    exact h.lodnum g' hg'
  vertattribnum := h.vertattribnum
  vattrs := h.vattrs
  vertformat := h.vertformat
  vertstride := h.vertstride
  vertnum := h.vertnum
  indexnum := h.indexnum
  index := h.index
  u2 := h.u2
  lods := by
    intro g hg l hl
    obtain ⟨g', hg', rfl⟩ := List.mem_map.1 hg
    obtain ⟨l', hl', rfl⟩ := List.mem_map.1 hl
    have := h.lods g' hg' l' hl'
    refine ⟨this.rignum, fun r hr => ?_, fun r hr b hb => ?_, this.nodenum, this.matnum,
      fun x hx => ?_⟩
    · obtain ⟨r', hr', rfl⟩ := List.mem_map.1 hr
      exact this.bonenum r' hr'
    · obtain ⟨r', hr', rfl⟩ := List.mem_map.1 hr
      obtain ⟨b', hb', rfl⟩ := List.mem_map.1 hb
      exact this.boneid r' hr' b' hb'
    · obtain ⟨x', hx', rfl⟩ := List.mem_map.1 hx
      have q := this.mats x' hx'
      exact ⟨q.1, q.2, q.3, q.4, q.5, q.6, q.7, q.8, q.9, q.10, q.11⟩

/-- A well-formed mesh is written without exception iff it has an index list and every integer
fits its field. -/
theorem exportMesh_err {pl : Plat} {m : Mesh F} (h : MeshWF m) {l : List Int}
    (hl : m.index = .many l) : (exportMesh pl m).err = none ↔ InRange pl m := by
  rw [exportMesh_map, exportMesh_many (l := l) (by simpa [Mesh.map] using hl),
    fileBytes_err (h.map _)]
  refine ⟨fun h' => ?_, fun h' => h'.map _⟩
  have := h'.map (fun _ : W => ())
  rw [Mesh.map_map] at this
  obtain ⟨a1, a2, a3, a4, a5, b, c, d, e, f, g, i, j, k, l, n, o⟩ := this
  refine ⟨a1, a2, a3, a4, a5, b, c, fun x hx => d _ (List.mem_map_of_mem hx), e, f, g, i, j, k, l,
    n, fun x hx y hy => ?_⟩
  have := o _ (List.mem_map_of_mem hx) _ (List.mem_map_of_mem hy)
  refine ⟨this.1, fun r hr => this.2 _ (List.mem_map_of_mem hr),
    fun r hr b hb => this.3 _ (List.mem_map_of_mem hr) _ (List.mem_map_of_mem hb), this.4, this.5,
    fun z hz => ?_⟩
  have q := this.6 _ (List.mem_map_of_mem hz)
  exact ⟨q.1, q.2, q.3, q.4, q.5, q.6, q.7, q.8, q.9, q.10, q.11⟩

/-! ## The part of a file before the vertex block -/

/-- What `loadBody` does after the vertex count was read. -/
def loadRest (pl : Plat) (kind : Kind) (p : Preamble) : P (Mesh F) := do
  let vertices ← loadVertices pl p.vertstride p.vertformat p.vertnum
  let indexnum ← readLong pl
  let index ← readShort pl indexnum
  let u2 ← loadU2 pl kind
  let geoms0 ← P.each (loadGeomNodes pl p.head.version kind) p.lodnums
  let geoms ← P.each (loadGeomMaterials pl p.head.version kind) geoms0
  pure { kind, head := p.head, u1 := p.u1, geomnum := p.geomnum, geoms,
         vertattribnum := p.vertattribnum, vattrs := p.vattrs, vertformat := p.vertformat,
         vertstride := p.vertstride, vertnum := p.vertnum, vertices, indexnum, index, u2 }

theorem run_ok {α β : Type} {p : P α} {f : α → P β} {s r : Bytes} {a : α} (h : p s = .ok (a, r)) :
    (p >>= f) s = f a r := by rw [P.bind_run, h]

theorem loadBody_preamble {pl : Plat} {p : Preamble} {bs : Bytes} (h : p.Bytes pl bs) (k : Kind)
    (rest : Bytes) : loadBody (F := F) pl k (bs ++ rest) = loadRest pl k p rest := by
  obtain ⟨h1, h2, h3⟩ := h
  have h3 := (preamble_writes p bs).2 h3
  simp only [Out.all] at h3
  obtain ⟨a1, r1, w1, g1, rfl⟩ := Out.seq_ok.1 h3
  obtain ⟨a2, r2, w2, g2, rfl⟩ := Out.seq_ok.1 g1
  obtain ⟨a3, r3, w3, g3, rfl⟩ := Out.seq_ok.1 g2
  obtain ⟨a4, r4, w4, g4, rfl⟩ := Out.seq_ok.1 g3
  obtain ⟨a5, r5, w5, g5, rfl⟩ := Out.seq_ok.1 g4
  obtain ⟨a6, r6, w6, g6, rfl⟩ := Out.seq_ok.1 g5
  obtain ⟨a7, r7, w7, g7, rfl⟩ := Out.seq_ok.1 g6
  obtain ⟨a8, r8, w8, g8, rfl⟩ := Out.seq_ok.1 g7
  obtain ⟨a9, r9, w9, g9, rfl⟩ := Out.seq_ok.1 g8
  obtain ⟨a10, r10, w10, g10, rfl⟩ := Out.seq_ok.1 g9
  obtain ⟨a11, r11, w11, g11, rfl⟩ := Out.seq_ok.1 g10
  obtain ⟨a12, r12, w12, g12, rfl⟩ := Out.seq_ok.1 g11
  obtain ⟨a13, r13, w13, g13, rfl⟩ := Out.seq_ok.1 g12
  rw [Out.nil_ok] at g13
  subst g13
  unfold loadBody loadHead
  simp only [bind_assoc, pure_bind, List.append_assoc, List.nil_append]
  have l := readLong_inv pl
  rw [run_ok (l.complete _ trivial w1), run_ok (l.complete _ trivial w2),
    run_ok (l.complete _ trivial w3), run_ok (l.complete _ trivial w4),
    run_ok (l.complete _ trivial w5), run_ok (readByte_inv.complete _ trivial w6),
    run_ok (l.complete _ trivial w7),
    run_ok ((l.rep p.geomnum.toNat).complete _ ⟨h1, fun _ _ => trivial⟩ w8),
    run_ok (l.complete _ trivial w9),
    run_ok (((loadVAttr_inv pl).rep p.vertattribnum.toNat).complete _ ⟨h2, fun _ _ => trivial⟩ w10),
    run_ok (l.complete _ trivial w11), run_ok (l.complete _ trivial w12),
    run_ok (l.complete _ trivial w13)]
  rfl

theorem load_error {pl : Plat} {k : Kind} {file : Bytes} {e : Err}
    (h : loadBody (F := F) pl k file = .error e) : load (F := F) pl k file = .error e := by
  unfold load; rw [h]

end Bf2
