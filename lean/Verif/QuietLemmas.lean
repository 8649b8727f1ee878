import Verif.FormatLemmas

/-! # Which bytes of a file change when its signalling NaNs become quiet -/

namespace Bf2

/-- Two outputs of the same length that differ in exactly `n` bytes, each by having bit 6 set. -/
structure Near (n : Nat) (a b : Out) : Prop where
  err : a.err = b.err
  bytes : List.Forall₂ (fun x y : UInt8 => y = x ∨ y = x ||| 0x40) a.bytes b.bytes
  diff : differing a.bytes b.bytes = n

namespace Near

theorem refl (a : Out) : Near 0 a a where
  err := rfl
  bytes := List.forall₂_same.2 fun _ _ => .inl rfl
  diff := by
    have : ∀ l : Bytes, differing l l = 0 := by
      intro l
      induction l with
      | nil => rfl
      | cons x l ih => simpa [differing] using ih
    exact this _

theorem mk_bytes {n : Nat} {x y : Bytes} {e : Option Err}
    (h : Near n (.write x) (.write y)) : Near n ⟨x, e⟩ ⟨y, e⟩ := ⟨rfl, h.bytes, h.diff⟩

theorem append {n m : Nat} {a b c d : Bytes} (h : Near n (.write a) (.write b))
    (h' : Near m (.write c) (.write d)) : Near (n + m) (.write (a ++ c)) (.write (b ++ d)) where
  err := rfl
  bytes := List.rel_append h.bytes h'.bytes
  diff := by
    have hl := h.bytes.length_eq
    simp only [Out.write_bytes] at *
    unfold differing
    rw [List.zip_append hl, List.countP_append]
    exact congrArg₂ (· + ·) h.diff h'.diff

theorem of_bytes {n : Nat} {a b : Out} (h : Near n a b) : Near n (.write a.bytes) (.write b.bytes) :=
  ⟨rfl, h.bytes, h.diff⟩

end Near

theorem write_mk (x : Bytes) : Out.write x = ⟨x, none⟩ := rfl

/-- As `Near`, but the count is claimed only when nothing raised. -/
structure NearOk (n : Nat) (a b : Out) : Prop where
  err : a.err = b.err
  near : a.err = none → Near n a b

namespace NearOk

theorem of {n : Nat} {a b : Out} (h : Near n a b) : NearOk n a b := ⟨h.err, fun _ => h⟩

theorem refl (a : Out) : NearOk 0 a a := of (.refl a)

theorem seq {n m : Nat} {a b c d : Out} (h : NearOk n a b) (h' : NearOk m c d) :
    NearOk (n + m) (a.seq c) (b.seq d) := by
  obtain ⟨x, e⟩ := a
  obtain ⟨y, e'⟩ := b
  obtain ⟨z, f⟩ := c
  obtain ⟨w, f'⟩ := d
  obtain ⟨h1, h2⟩ := h
  obtain ⟨h3, h4⟩ := h'
  simp only at h1 h3
  subst h1 h3
  cases e with
  | some e => exact ⟨rfl, fun h => by simp at h⟩
  | none =>
    refine ⟨rfl, fun h => ?_⟩
    simp only [Out.mk_none_seq] at h ⊢
    subst h
    exact Near.append (h2 rfl) (h4 rfl)

theorem all_nil : NearOk 0 (.all []) (.all []) := refl _

theorem all_cons {n m : Nat} {a b : Out} {l l' : List Out} (h : NearOk n a b)
    (h' : NearOk m (.all l) (.all l')) : NearOk (n + m) (.all (a :: l)) (.all (b :: l')) := h.seq h'

theorem each {α γ : Type} {f : α → Out} {g : α → α} {fl : α → List γ} {c : γ → Bool}
    (h : ∀ a, NearOk ((fl a).countP c) (f a) (f (g a))) (l : List α) :
    NearOk ((l.flatMap fl).countP c) (.each f l) (.each f (l.map g)) := by
  induction l with
  | nil => exact refl _
  | cons a l ih =>
    rw [List.flatMap_cons, List.countP_append]
    exact (h a).seq ih

/-- The elements differ in nothing that is written. -/
theorem each_same {α : Type} {f : α → Out} {g : α → α} (h : ∀ a, f (g a) = f a) (l : List α) :
    NearOk 0 (.each f l) (.each f (l.map g)) := by
  rw [each_map, show (fun a => f (g a)) = f from funext h]; exact refl _

theorem cast {n m : Nat} {a b : Out} (h : NearOk n a b) (e : n = m) : NearOk m a b := e ▸ h

end NearOk

/-- Is the word a signalling NaN? -/
abbrev isS (w : W) : Bool := decide (SNaN w)

theorem encLE_four (n : Nat) : encLE 4 n = [UInt8.ofNat (n % 256), UInt8.ofNat (n / 256 % 256),
    UInt8.ofNat (n / 256 / 256 % 256), UInt8.ofNat (n / 256 / 256 / 256 % 256)] := rfl

theorem byte_or (n : Nat) (h : n < 256) (hb : n / 64 % 2 = 0) :
    UInt8.ofNat n ||| 0x40 = UInt8.ofNat (n + 64) ∧ UInt8.ofNat n ≠ UInt8.ofNat (n + 64) := by
  have : ∀ n : Fin 256, n.val / 64 % 2 = 0 →
      UInt8.ofNat n.val ||| 0x40 = UInt8.ofNat (n.val + 64) ∧
      UInt8.ofNat n.val ≠ UInt8.ofNat (n.val + 64) := by decide +kernel
  exact this ⟨n, h⟩ hb

theorem near_reverse {n : Nat} {a b : Bytes} (h : Near n (.write a) (.write b)) :
    Near n (.write a.reverse) (.write b.reverse) where
  err := rfl
  bytes := List.rel_reverse h.bytes
  diff := by
    have hl := h.bytes.length_eq
    have := h.diff
    simp only [Out.write_bytes] at *
    unfold differing at *
    rw [List.zip_eq_zipWith, ← List.reverse_zipWith hl, List.countP_reverse, ← List.zip_eq_zipWith, this]

theorem floatBytes_near (pl : Plat) (w : W) :
    Near ([w].countP isS) (.write (floatBytes pl w)) (.write (floatBytes pl (quieted w))) := by
  by_cases hs : SNaN w
  · have key : Near 1 (.write (encLE 4 w.toNat)) (.write (encLE 4 (quieted w).toNat)) := by
      have hq : (quieted w).toNat = w.toNat + 2 ^ 22 := by rw [quieted_toNat, if_pos hs]
      have hb := ((SNaN_iff w).1 hs).2
      have hlt := w.isLt
      rw [hq, encLE_four, encLE_four]
      generalize w.toNat = n at *
      have e1 : (n + 2 ^ 22) % 256 = n % 256 := by omega
      have e2 : (n + 2 ^ 22) / 256 % 256 = n / 256 % 256 := by omega
      have e3 : (n + 2 ^ 22) / 256 / 256 % 256 = n / 256 / 256 % 256 + 64 := by omega
      have e4 : (n + 2 ^ 22) / 256 / 256 / 256 % 256 = n / 256 / 256 / 256 % 256 := by omega
      rw [e1, e2, e3, e4]
      obtain ⟨o1, o2⟩ := byte_or (n / 256 / 256 % 256) (by omega) (by omega)
      refine ⟨rfl, ?_, ?_⟩
      · simp [o1]
      · simp only [Out.write_bytes, differing, List.zip_cons_cons, List.zip_nil_right,
          List.countP_cons, List.countP_nil]
        simp
    have hc : [w].countP isS = 1 := by simp [isS, hs]
    rw [hc]
    unfold floatBytes Plat.enc Plat.order
    split
    · exact near_reverse key
    · exact key
  · have hc : [w].countP isS = 0 := by simp [isS, hs]
    rw [hc, quieted_of_not hs]
    exact .refl _

variable (pl : Plat)

theorem writeFloat3_near (v : Vec3 W) :
    Near (v.floats.countP isS) (writeFloat3 pl v) (writeFloat3 pl (v.map quieted)) := by
  have : v.floats.countP isS = [v.x].countP isS + [v.y].countP isS + [v.z].countP isS := by
    rw [← List.countP_append, ← List.countP_append]; rfl
  rw [this]
  exact ((floatBytes_near pl v.x).append (floatBytes_near pl v.y)).append (floatBytes_near pl v.z)

theorem writeFloat4_near (v : Vec4 W) :
    Near (v.floats.countP isS) (writeFloat4 pl v) (writeFloat4 pl (v.map quieted)) := by
  have : v.floats.countP isS
      = [v.x].countP isS + [v.y].countP isS + [v.z].countP isS + [v.w].countP isS := by
    rw [← List.countP_append, ← List.countP_append, ← List.countP_append]; rfl
  rw [this]
  exact (((floatBytes_near pl v.x).append (floatBytes_near pl v.y)).append
    (floatBytes_near pl v.z)).append (floatBytes_near pl v.w)

theorem writeMatrix4_near (m : Mat4 W) :
    NearOk (m.floats.countP isS) (writeMatrix4 pl m) (writeMatrix4 pl (m.map quieted)) := by
  refine (NearOk.all_cons (.of (writeFloat4_near pl m.r0)) <|
    .all_cons (.of (writeFloat4_near pl m.r1)) <| .all_cons (.of (writeFloat4_near pl m.r2)) <|
    .all_cons (.of (writeFloat4_near pl m.r3)) .all_nil).cast ?_
  simp only [Mat4.floats, List.countP_append]; omega

theorem writeFloat3?_near (o : Option (Vec3 W)) :
    NearOk ((optFloats o).countP isS) (writeFloat3? pl o)
      (writeFloat3? pl (o.map (Vec3.map quieted))) := by
  cases o with
  | none => exact .refl _
  | some v => exact .of (writeFloat3_near pl v)

theorem exportMat_near {v : Int} {k : Kind} {m : Mat W} (h : MatWF k v m) :
    NearOk (m.floats.countP isS) (exportMat pl v k m) (exportMat pl v k (m.map quieted)) := by
  have hb : NearOk (m.floats.countP isS)
      (if !k.isSkinned && v == 11 then
        .all [writeFloat3? pl m.mmin, writeFloat3? pl m.mmax] else .nil)
      (if !k.isSkinned && v == 11 then
        .all [writeFloat3? pl (m.map quieted).mmin, writeFloat3? pl (m.map quieted).mmax]
        else .nil) := by
    split
    · refine (NearOk.all_cons (writeFloat3?_near pl m.mmin)
        (.all_cons (writeFloat3?_near pl m.mmax) .all_nil)).cast ?_
      simp only [Mat.floats, List.countP_append]; omega
    · next hk =>
      have h1 := h.mmin
      have h2 := h.mmax
      rw [Bool.not_eq_true] at hk
      rw [hk] at h1 h2
      simp only [Option.isSome_eq_false_iff, Option.isNone_iff_eq_none] at h1 h2
      simp only [Mat.floats, h1, h2]
      exact .refl _
  refine (NearOk.all_cons (.refl _) <| .all_cons (.refl _) <| .all_cons (.refl _) <|
    .all_cons (.refl _) <| .all_cons (.refl _) <| .all_cons (.refl _) <| .all_cons (.refl _) <|
    .all_cons (.refl _) <| .all_cons (.refl _) <| .all_cons (.refl _) <| .all_cons (.refl _) <|
    .all_cons hb .all_nil).cast ?_
  omega

theorem exportRig_near (r : Rig W) :
    NearOk ((r.bones.flatMap fun b => b.matrix.floats).countP isS) (exportRig pl r)
      (exportRig pl (r.map quieted)) := by
  refine (NearOk.all_cons (.refl _) (.all_cons (.each (fl := fun b => b.matrix.floats)
    (c := isS) (fun b => ?_) r.bones) .all_nil)).cast (by omega)
  exact (NearOk.all_cons (.refl _) (.all_cons (writeMatrix4_near pl b.matrix) .all_nil)).cast
    (by omega)

theorem exportLodNodes_near {v : Int} {k : Kind} {l : Lod W} (h : LodNodesWF k v l) :
    NearOk (l.nodeFloats.countP isS) (exportLodNodes pl v k l)
      (exportLodNodes pl v k (l.map quieted)) := by
  have hp : NearOk ((optFloats l.pivot).countP isS)
      (if v ≤ 6 then writeFloat3? pl l.pivot else .nil)
      (if v ≤ 6 then writeFloat3? pl (l.map quieted).pivot else .nil) := by
    split
    · exact writeFloat3?_near pl l.pivot
    · next hv =>
      have := h.pivot
      rw [decide_eq_false hv] at this
      simp only [Option.isSome_eq_false_iff, Option.isNone_iff_eq_none] at this
      rw [this]; exact .refl _
  have hr : NearOk ((l.rigs.flatMap fun r => r.bones.flatMap fun b => b.matrix.floats).countP isS
      + (l.nodes.flatMap Mat4.floats).countP isS)
      (if k.isSkinned then .all [writeLong pl l.rignum, .each (exportRig pl) l.rigs]
        else .all [writeLong pl l.nodenum,
          if k.isBundled then .nil else .each (writeMatrix4 pl) l.nodes])
      (if k.isSkinned then .all [writeLong pl l.rignum, .each (exportRig pl) (l.map quieted).rigs]
        else .all [writeLong pl l.nodenum,
          if k.isBundled then .nil else .each (writeMatrix4 pl) (l.map quieted).nodes]) := by
    cases hk : k.isSkinned with
    | true =>
      have hn : l.nodes = [] := by
        have := h.nodes
        simp only [hk, Bool.true_or, if_true] at this
        exact List.eq_nil_of_length_eq_zero this
      rw [if_pos rfl, if_pos rfl, hn]
      refine (NearOk.all_cons (.refl _) (.all_cons (.each (exportRig_near pl) l.rigs) .all_nil)).cast
        ?_
      simp
    | false =>
      have hr : l.rigs = [] := by
        have := h.rigs
        rw [h.no_rigs hk] at this
        exact List.eq_nil_of_length_eq_zero this
      simp only [Bool.false_eq_true, if_false, hr]
      cases hb : k.isBundled with
      | true =>
        have hn : l.nodes = [] := by
          have := h.nodes
          simp only [hb, Bool.or_true, if_true] at this
          exact List.eq_nil_of_length_eq_zero this
        rw [hn]
        exact .refl _
      | false =>
        refine (NearOk.all_cons (.refl _)
          (.all_cons (.each (writeMatrix4_near pl) l.nodes) .all_nil)).cast ?_
        simp
  refine (NearOk.all_cons (.of (writeFloat3_near pl l.min)) <|
    .all_cons (.of (writeFloat3_near pl l.max)) <| .all_cons hp <| .all_cons hr .all_nil).cast ?_
  simp only [Lod.nodeFloats, List.countP_append]; omega

theorem NearOk.each_mem {α γ : Type} {f : α → Out} {g : α → α} {fl : α → List γ} {c : γ → Bool}
    {l : List α} (h : ∀ a ∈ l, NearOk ((fl a).countP c) (f a) (f (g a))) :
    NearOk ((l.flatMap fl).countP c) (.each f l) (.each f (l.map g)) := by
  induction l with
  | nil => exact refl _
  | cons a l ih =>
    rw [List.flatMap_cons, List.countP_append]
    exact (h a (by simp)).seq (ih fun a ha => h a (by simp [ha]))

theorem fileBytes_near {m : Mesh W} (h : MeshWF m) :
    NearOk (m.floats.countP isS) (fileBytes pl m) (fileBytes pl (m.map quieted)) := by
  have hv : NearOk (m.vertices.countP isS) (.each (writeFloat pl) m.vertices)
      (.each (writeFloat pl) (m.vertices.map quieted)) := by
    have := NearOk.each (f := writeFloat pl) (fl := fun w => [w]) (c := isS)
      (fun w => .of (floatBytes_near pl w)) m.vertices
    rwa [List.flatMap_singleton'] at this
  have hn : NearOk ((m.geoms.flatMap fun g => g.lods.flatMap Lod.nodeFloats).countP isS)
      (.each (fun g => .each (exportLodNodes pl m.head.version m.kind) g.lods) m.geoms)
      (.each (fun g => .each (exportLodNodes pl m.head.version m.kind) g.lods)
        (m.geoms.map (Geom.map quieted))) :=
    .each_mem fun g hg => .each_mem fun l hl => exportLodNodes_near pl ((h.geom g hg).nodes l hl)
  have hm : NearOk ((m.geoms.flatMap fun g => g.lods.flatMap fun l =>
        l.materials.flatMap Mat.floats).countP isS)
      (.each (fun g => .each (exportLodMaterials pl m.head.version m.kind) g.lods) m.geoms)
      (.each (fun g => .each (exportLodMaterials pl m.head.version m.kind) g.lods)
        (m.geoms.map (Geom.map quieted))) := by
    refine .each_mem fun g hg => .each_mem fun l hl => ?_
    refine (NearOk.all_cons (.refl _) (.all_cons (.each_mem (fl := Mat.floats) (c := isS)
      fun x hx => ?_) .all_nil)).cast (by omega)
    exact exportMat_near pl (((h.geom g hg).mats l hl).each x hx)
  have hg : NearOk 0 (.each (fun g => writeLong pl g.lodnum) m.geoms)
      (.each (fun g => writeLong pl g.lodnum) (m.geoms.map (Geom.map quieted))) :=
    .each_same (g := Geom.map quieted) (fun _ => rfl) _
  refine (NearOk.all_cons (.refl _) <| .all_cons (.refl _) <| .all_cons (.refl _) <|
    .all_cons hg <| .all_cons (.refl _) <| .all_cons (.refl _) <| .all_cons (.refl _) <|
    .all_cons (.refl _) <| .all_cons (.refl _) <| .all_cons hv <| .all_cons (.refl _) <|
    .all_cons (.refl _) <| .all_cons (.refl _) <| .all_cons hn <| .all_cons hm .all_nil).cast ?_
  simp only [Mesh.floats, List.countP_append]; omega

end Bf2
