import Verif.CodecLemmas
import Verif.Spec

/-! # Inversion lemmas for the loaders and exporters of `Mesh.lean`, on raw words -/

namespace Bf2

variable {α β : Type}

theorem Inverts.each {f : α → P β} {w : β → Out} {V : α → β → Prop}
    (h : ∀ a, Inverts (f a) w (V a)) (as : List α) :
    Inverts (P.each f as) (Out.each w) (fun bs => List.Forall₂ V as bs) where
  sound := by
    induction as with
    | nil =>
      intro s l r hs
      simp only [P.each, P.pure_ok] at hs
      obtain ⟨rfl, rfl⟩ := hs
      exact ⟨.nil, [], rfl, rfl⟩
    | cons a as ih =>
      intro s l r hs
      simp only [P.each, P.bind_ok, P.pure_ok] at hs
      obtain ⟨b, s1, h1, l', s2, h2, rfl, rfl⟩ := hs
      obtain ⟨hv, b1, hw1, rfl⟩ := (h a).sound h1
      obtain ⟨hvs, b2, hw2, rfl⟩ := ih h2
      exact ⟨.cons hv hvs, b1 ++ b2, by simp [Out.each, hw1, hw2], by simp⟩
  complete := by
    induction as with
    | nil =>
      intro l bs r hv hw
      cases hv
      rw [Out.each, Out.nil_ok] at hw
      subst hw; rfl
    | cons a as ih =>
      intro l bs r hv hw
      cases hv with
      | cons hb hbs =>
        simp only [Out.each, Out.seq_ok] at hw
        obtain ⟨b1, b2, h1, h2, rfl⟩ := hw
        simp only [P.each, P.bind_ok, P.pure_ok]
        exact ⟨_, b2 ++ r, by simpa using (h a).complete (b2 ++ r) hb h1, _, r,
          ih r hbs h2, rfl, rfl⟩

abbrev W := BitVec 32

theorem loadHead_inv (pl : Plat) : Inverts (loadHead pl) (exportHead pl) (fun _ => True) where
  sound {s a r} h := by
    simp only [loadHead, P.bind_ok, P.pure_ok] at h
    obtain ⟨x1, s1, h1, x2, s2, h2, x3, s3, h3, x4, s4, h4, x5, s5, h5, rfl, rfl⟩ := h
    obtain ⟨_, b1, hw1, rfl⟩ := (readLong_inv pl).sound h1
    obtain ⟨_, b2, hw2, rfl⟩ := (readLong_inv pl).sound h2
    obtain ⟨_, b3, hw3, rfl⟩ := (readLong_inv pl).sound h3
    obtain ⟨_, b4, hw4, rfl⟩ := (readLong_inv pl).sound h4
    obtain ⟨_, b5, hw5, rfl⟩ := (readLong_inv pl).sound h5
    refine ⟨trivial, b1 ++ b2 ++ b3 ++ b4 ++ b5, ?_, by simp⟩
    simp [exportHead, Out.all, hw1, hw2, hw3, hw4, hw5, Out.nil]
  complete {a bs} r _ h := by
    simp only [exportHead, Out.all, Out.seq_ok, Out.nil_ok] at h
    obtain ⟨b1, _, h1, ⟨b2, _, h2, ⟨b3, _, h3, ⟨b4, _, h4, ⟨b5, _, h5, rfl, rfl⟩, rfl⟩, rfl⟩, rfl⟩,
      rfl⟩ := h
    simp only [loadHead, P.bind_ok, P.pure_ok, List.append_assoc]
    exact ⟨_, _, (readLong_inv pl).complete _ trivial h1, _, _,
      (readLong_inv pl).complete _ trivial h2, _, _,
      (readLong_inv pl).complete _ trivial h3, _, _,
      (readLong_inv pl).complete _ trivial h4, _, _,
      (readLong_inv pl).complete _ trivial h5, rfl, rfl⟩

theorem loadVAttr_inv (pl : Plat) : Inverts (loadVAttr pl) (exportVAttr pl) (fun _ => True) where
  sound {s a r} h := by
    simp only [loadVAttr, P.bind_ok, P.pure_ok] at h
    obtain ⟨x1, s1, h1, x2, s2, h2, x3, s3, h3, x4, s4, h4, rfl, rfl⟩ := h
    obtain ⟨_, b1, hw1, rfl⟩ := (readShort1_inv pl).sound h1
    obtain ⟨_, b2, hw2, rfl⟩ := (readShort1_inv pl).sound h2
    obtain ⟨_, b3, hw3, rfl⟩ := (readShort1_inv pl).sound h3
    obtain ⟨_, b4, hw4, rfl⟩ := (readShort1_inv pl).sound h4
    refine ⟨trivial, b1 ++ b2 ++ b3 ++ b4, ?_, by simp⟩
    simp [exportVAttr, Out.all, hw1, hw2, hw3, hw4, Out.nil]
  complete {a bs} r _ h := by
    simp only [exportVAttr, Out.all, Out.seq_ok, Out.nil_ok] at h
    obtain ⟨b1, _, h1, ⟨b2, _, h2, ⟨b3, _, h3, ⟨b4, _, h4, rfl, rfl⟩, rfl⟩, rfl⟩, rfl⟩ := h
    simp only [loadVAttr, P.bind_ok, P.pure_ok, List.append_assoc]
    exact ⟨_, _, (readShort1_inv pl).complete _ trivial h1, _, _,
      (readShort1_inv pl).complete _ trivial h2, _, _,
      (readShort1_inv pl).complete _ trivial h3, _, _,
      (readShort1_inv pl).complete _ trivial h4, rfl, rfl⟩

theorem loadVertices_inv (pl : Plat) (vs vf vn : Int) :
    Inverts (loadVertices (F := W) pl vs vf vn) (Out.each (writeFloat pl))
      (fun l => vf ≠ 0 ∧ (l.length : Int) = intDivMul vs vf vn ∧ l.length ≠ 1) where
  sound {s a r} h := by
    by_cases hvf : vf = 0
    · simp only [loadVertices, dataNum, hvf, if_true] at h
      cases h
    · simp only [loadVertices, dataNum, hvf, if_false, P.bind_ok] at h
      obtain ⟨x, s1, h1, h2⟩ := h
      unfold readFloat readCount at h1
      split at h1
      · cases h1
      · split at h1
        · simp only [P.bind_ok, P.pure_ok] at h1
          obtain ⟨y, s2, _, rfl, rfl⟩ := h1
          cases h2
        · next hneg hone =>
          simp only [P.bind_ok, P.pure_ok] at h1
          obtain ⟨y, s2, h3, rfl, rfl⟩ := h1
          simp only [P.pure_ok] at h2
          obtain ⟨rfl, rfl⟩ := h2
          obtain ⟨⟨hl, _⟩, b, hw, rfl⟩ := ((readFloat1_inv pl).rep _).sound h3
          exact ⟨⟨hvf, by omega, by omega⟩, b, hw, rfl⟩
  complete {a bs} r hv hw := by
    obtain ⟨hvf, hl, h1⟩ := hv
    simp only [loadVertices, dataNum, hvf, if_false, P.bind_ok]
    refine ⟨.many a, r, ?_, rfl⟩
    unfold readFloat readCount
    rw [if_neg (by omega), if_neg (by omega)]
    simp only [P.bind_ok, P.pure_ok]
    exact ⟨a, r, ((readFloat1_inv pl).rep _).complete r ⟨by omega, by simp⟩ hw, rfl, rfl⟩

/-- What the index block of a file looks like; unlike `exportIndex` also for one index. -/
def indexBytes (pl : Plat) : OneOrMany Int → Out
  | .one a => writeShort pl a
  | .many l => .each (writeShort pl) l

theorem readShort_inv (pl : Plat) (n : Int) :
    Inverts (readShort pl n) (indexBytes pl) (IndexWF n) where
  sound {s a r} h := by
    unfold readShort readCount at h
    split at h
    · cases h
    · split at h
      · next h1 =>
        simp only [P.bind_ok, P.pure_ok] at h
        obtain ⟨y, s2, h2, rfl, rfl⟩ := h
        obtain ⟨_, b, hw, rfl⟩ := (readShort1_inv pl).sound h2
        exact ⟨h1, b, hw, rfl⟩
      · next hneg hone =>
        simp only [P.bind_ok, P.pure_ok] at h
        obtain ⟨y, s2, h2, rfl, rfl⟩ := h
        obtain ⟨⟨hl, _⟩, b, hw, rfl⟩ := ((readShort1_inv pl).rep _).sound h2
        exact ⟨⟨by omega, hone, hl⟩, b, hw, rfl⟩
  complete {a bs} r hv hw := by
    unfold readShort readCount
    match a, hv, hw with
    | .one x, hv, hw =>
      have hv : n = 1 := hv
      rw [if_neg (by omega), if_pos hv]
      simp only [P.bind_ok, P.pure_ok]
      exact ⟨x, r, (readShort1_inv pl).complete r trivial hw, rfl, rfl⟩
    | .many l, hv, hw =>
      obtain ⟨h0, h1, hl⟩ := hv
      rw [if_neg (by omega), if_neg h1]
      simp only [P.bind_ok, P.pure_ok]
      exact ⟨l, r, ((readShort1_inv pl).rep _).complete r ⟨hl, by simp⟩ hw, rfl, rfl⟩

theorem loadBone_inv (pl : Plat) :
    Inverts (loadBone (F := W) pl) (exportBone pl) (fun _ => True) where
  sound {s a r} h := by
    simp only [loadBone, P.bind_ok, P.pure_ok] at h
    obtain ⟨x1, s1, h1, x2, s2, h2, rfl, rfl⟩ := h
    obtain ⟨_, b1, hw1, rfl⟩ := (readLong_inv pl).sound h1
    obtain ⟨_, b2, hw2, rfl⟩ := (readMatrix4_inv pl).sound h2
    refine ⟨trivial, b1 ++ b2, ?_, by simp⟩
    simp [exportBone, Out.all, hw1, hw2, Out.nil]
  complete {a bs} r _ h := by
    simp only [exportBone, Out.all, Out.seq_ok, Out.nil_ok] at h
    obtain ⟨b1, _, h1, ⟨b2, _, h2, rfl, rfl⟩, rfl⟩ := h
    simp only [loadBone, P.bind_ok, P.pure_ok, List.append_assoc]
    exact ⟨_, _, (readLong_inv pl).complete _ trivial h1, _, _,
      (readMatrix4_inv pl).complete _ trivial h2, rfl, rfl⟩

theorem loadRig_inv (pl : Plat) :
    Inverts (loadRig (F := W) pl) (exportRig pl) (fun r => r.bones.length = r.bonenum.toNat) where
  sound {s a r} h := by
    simp only [loadRig, P.bind_ok, P.pure_ok] at h
    obtain ⟨x1, s1, h1, x2, s2, h2, rfl, rfl⟩ := h
    obtain ⟨_, b1, hw1, rfl⟩ := (readLong_inv pl).sound h1
    obtain ⟨⟨hl, _⟩, b2, hw2, rfl⟩ := ((loadBone_inv pl).rep _).sound h2
    refine ⟨hl, b1 ++ b2, ?_, by simp⟩
    simp [exportRig, Out.all, hw1, hw2, Out.nil]
  complete {a bs} r hv h := by
    simp only [exportRig, Out.all, Out.seq_ok, Out.nil_ok] at h
    obtain ⟨b1, _, h1, ⟨b2, _, h2, rfl, rfl⟩, rfl⟩ := h
    simp only [loadRig, P.bind_ok, P.pure_ok, List.append_assoc]
    exact ⟨_, _, (readLong_inv pl).complete _ trivial h1, _, _,
      ((loadBone_inv pl).rep _).complete _ ⟨hv, by simp⟩ h2, rfl, rfl⟩

/-- An optional field read when `c` holds. -/
theorem opt_inv {p : P α} {w : α → Out} {wn : Out} (h : Inverts p w (fun _ => True)) (c : Bool) :
    Inverts (if c = true then (do let v ← p; pure (some v)) else pure none)
      (fun o => if c = true then (match o with | some v => w v | none => wn) else .nil)
      (fun o => o.isSome = c) where
  sound {s a r} hs := by
    cases c with
    | false =>
      simp only [Bool.false_eq_true, if_false, P.pure_ok] at hs
      obtain ⟨rfl, rfl⟩ := hs
      exact ⟨rfl, [], rfl, rfl⟩
    | true =>
      simp only [if_true, P.bind_ok, P.pure_ok] at hs
      obtain ⟨x, s1, h1, rfl, rfl⟩ := hs
      obtain ⟨_, b, hw, rfl⟩ := h.sound h1
      exact ⟨rfl, b, by simpa using hw, rfl⟩
  complete {a bs} r hv hw := by
    cases c with
    | false =>
      cases a with
      | some _ => cases hv
      | none =>
        simp only [Bool.false_eq_true, if_false, Out.nil_ok] at hw
        subst hw; rfl
    | true =>
      cases a with
      | none => cases hv
      | some x =>
        simp only [if_true] at hw
        simp only [if_true, P.bind_ok, P.pure_ok]
        exact ⟨x, r, h.complete r trivial hw, rfl, rfl⟩

theorem pivot_inv (pl : Plat) (version : Int) :
    Inverts (loadPivot (F := W) pl version)
      (fun o => if version ≤ 6 then writeFloat3? pl o else .nil)
      (fun o => o.isSome = decide (version ≤ 6)) := by
  have h := opt_inv (wn := .raise .typeError) (readFloat3_inv pl) (decide (version ≤ 6))
  simp only [decide_eq_true_eq] at h
  exact h.congr (fun a _ => by cases a <;> rfl) (fun a => Iff.rfl)

theorem loadNodes_inv (pl : Plat) (k : Kind) (n : Int) :
    Inverts (loadNodes (F := W) pl k n)
      (fun l => if k.isBundled = true then .nil else .each (writeMatrix4 pl) l)
      (fun l => l.length = if k.isBundled = true then 0 else n.toNat) where
  sound {s a r} h := by
    unfold loadNodes at h
    split at h
    · next hb =>
      obtain ⟨rfl, rfl⟩ := P.pure_ok.1 h
      exact ⟨by simp [hb], [], by simp [hb, Out.nil], rfl⟩
    · next hb =>
      obtain ⟨⟨hl, _⟩, b5, hw5, rfl⟩ := ((readMatrix4_inv pl).rep _).sound h
      exact ⟨by simp [hb, hl], b5, by simp [hb, hw5], rfl⟩
  complete {a bs} r hv h := by
    unfold loadNodes
    split
    · next hb =>
      simp only [hb, if_true, Out.nil_ok] at h
      simp only [hb, if_true] at hv
      subst h
      rw [List.eq_nil_of_length_eq_zero hv]; rfl
    · next hb =>
      simp only [hb] at h hv
      exact ((readMatrix4_inv pl).rep _).complete _ ⟨hv, by simp⟩ h

theorem loadLodNodes_inv (pl : Plat) (version : Int) (k : Kind) :
    Inverts (loadLodNodes (F := W) pl version k) (exportLodNodes pl version k)
      (fun l => LodNodesWF k version l ∧ l.matnum = 0 ∧ l.materials = []) where
  sound {s a r} h := by
    simp only [loadLodNodes, P.bind_ok] at h
    obtain ⟨mn, s1, h1, mx, s2, h2, pv, s3, h3, h⟩ := h
    obtain ⟨_, b1, hw1, rfl⟩ := (readFloat3_inv pl).sound h1
    obtain ⟨_, b2, hw2, rfl⟩ := (readFloat3_inv pl).sound h2
    obtain ⟨hpv, b3, hw3, rfl⟩ := (pivot_inv pl version).sound h3
    by_cases hk : k.isSkinned = true
    · simp only [hk, if_true, P.bind_ok, P.pure_ok] at h
      obtain ⟨n, s4, h4, rigs, s5, h5, rfl, rfl⟩ := h
      obtain ⟨_, b4, hw4, rfl⟩ := (readLong_inv pl).sound h4
      obtain ⟨⟨hl, hb⟩, b5, hw5, rfl⟩ := ((loadRig_inv pl).rep _).sound h5
      refine ⟨⟨⟨hpv, hl, hb, by simp [hk], by simp [hk], by simp⟩, rfl, rfl⟩,
        b1 ++ b2 ++ b3 ++ b4 ++ b5, ?_, by simp⟩
      simp [exportLodNodes, Out.all, hw1, hw2, hw3, hk, hw4, hw5]
    · rw [Bool.not_eq_true] at hk
      simp only [hk, Bool.false_eq_true, if_false, P.bind_ok, P.pure_ok] at h
      obtain ⟨n, s4, h4, nodes, s5, h5, rfl, rfl⟩ := h
      obtain ⟨_, b4, hw4, rfl⟩ := (readLong_inv pl).sound h4
      obtain ⟨hl, b5, hw5, rfl⟩ := (loadNodes_inv pl k n).sound h5
      refine ⟨⟨⟨hpv, rfl, by simp, by simp, by simp [hk, hl], by simp [hk]⟩, rfl, rfl⟩,
        b1 ++ b2 ++ b3 ++ b4 ++ b5, ?_, by simp⟩
      simp [exportLodNodes, Out.all, hw1, hw2, hw3, hk, hw4, hw5]
  complete {a bs} r hv h := by
    obtain ⟨⟨hpv, hrigs, hbones, hnr, hnodes, hnn⟩, hmn, hms⟩ := hv
    simp only [exportLodNodes, Out.all, Out.seq_ok, Out.nil_ok] at h
    obtain ⟨b1, _, h1, ⟨b2, _, h2, ⟨b3, _, h3, ⟨b4, _, h4, rfl, rfl⟩, rfl⟩, rfl⟩, rfl⟩ := h
    simp only [loadLodNodes, P.bind_ok, List.append_assoc]
    refine ⟨_, _, (readFloat3_inv pl).complete _ trivial h1, _, _,
      (readFloat3_inv pl).complete _ trivial h2, _, _, (pivot_inv pl version).complete _ hpv h3, ?_⟩
    by_cases hk : k.isSkinned = true
    · simp only [hk, if_true, Out.seq_ok, Out.nil_ok] at h4
      obtain ⟨b5, _, h5, ⟨b6, _, h6, rfl, rfl⟩, rfl⟩ := h4
      simp only [hk, if_true, P.bind_ok, P.pure_ok, List.append_assoc]
      refine ⟨_, _, (readLong_inv pl).complete _ trivial h5, _, _,
        ((loadRig_inv pl).rep _).complete _ ⟨hrigs, hbones⟩ h6, ?_, rfl⟩
      have h7 : a.nodes = [] := List.eq_nil_of_length_eq_zero (by rw [hnodes]; simp [hk])
      have h8 := hnn hk
      cases a; simp_all
    · rw [Bool.not_eq_true] at hk
      simp only [hk, Bool.false_eq_true, if_false, Out.seq_ok, Out.nil_ok] at h4
      obtain ⟨b5, _, h5, ⟨b6, _, h6, rfl, rfl⟩, rfl⟩ := h4
      simp only [hk, Bool.false_eq_true, if_false, P.bind_ok, P.pure_ok, List.append_assoc]
      have h7 : a.rigs = [] := List.eq_nil_of_length_eq_zero (by rw [hrigs, hnr hk]; rfl)
      have h8 : a = ⟨a.min, a.max, a.pivot, 0, [], a.nodenum, a.nodes, 0, []⟩ := by
        have h8 := hnr hk
        cases a; simp_all
      exact ⟨_, _, (readLong_inv pl).complete _ trivial h5, a.nodes, r,
        (loadNodes_inv pl k _).complete _ (by simpa [hk] using hnodes) h6, h8.symm, rfl⟩

theorem alpha_inv (pl : Plat) (k : Kind) :
    Inverts (loadAlphamode pl k)
      (fun o => if k.isSkinned = true then .nil else writeLong? pl o)
      (fun o => o.isSome = !k.isSkinned) := by
  have h := opt_inv (wn := .raise .structError) (readLong_inv pl) (!k.isSkinned)
  unfold loadAlphamode
  generalize k.isSkinned = c at *
  cases c
  · exact h.congr (fun a _ => by cases a <;> rfl) (fun a => Iff.rfl)
  · exact h.congr (fun a _ => by cases a <;> rfl) (fun a => Iff.rfl)

theorem loadMat_inv (pl : Plat) (version : Int) (k : Kind) :
    Inverts (loadMat (F := W) pl version k) (exportMat pl version k) (MatWF k version) where
  sound {s a r} h := by
    simp only [loadMat, P.bind_ok] at h
    obtain ⟨am, s1, h1, fx, s2, h2, tc, s3, h3, mn, s4, h4, ms, s5, h5, v1, s6, h6, v2, s7, h7,
      v3, s8, h8, v4, s9, h9, v5, s10, h10, v6, s11, h11, h⟩ := h
    obtain ⟨ha, b1, hw1, rfl⟩ := (alpha_inv pl k).sound h1
    obtain ⟨_, b2, hw2, rfl⟩ := (readString_inv pl).sound h2
    obtain ⟨_, b3, hw3, rfl⟩ := (readString_inv pl).sound h3
    obtain ⟨_, b4, hw4, rfl⟩ := (readLong_inv pl).sound h4
    obtain ⟨⟨hl, _⟩, b5, hw5, rfl⟩ := ((readString_inv pl).rep _).sound h5
    obtain ⟨_, b6, hw6, rfl⟩ := (readLong_inv pl).sound h6
    obtain ⟨_, b7, hw7, rfl⟩ := (readLong_inv pl).sound h7
    obtain ⟨_, b8, hw8, rfl⟩ := (readLong_inv pl).sound h8
    obtain ⟨_, b9, hw9, rfl⟩ := (readLong_inv pl).sound h9
    obtain ⟨_, b10, hw10, rfl⟩ := (readLong_inv pl).sound h10
    obtain ⟨_, b11, hw11, rfl⟩ := (readLong_inv pl).sound h11
    by_cases hc : (!k.isSkinned && version == 11) = true
    · simp only [hc, if_true, P.bind_ok, P.pure_ok] at h
      obtain ⟨m1, s12, h12, m2, s13, h13, rfl, rfl⟩ := h
      obtain ⟨_, b12, hw12, rfl⟩ := (readFloat3_inv pl).sound h12
      obtain ⟨_, b13, hw13, rfl⟩ := (readFloat3_inv pl).sound h13
      refine ⟨⟨ha, hl, by simp only [hc]; rfl, by simp only [hc]; rfl⟩, b1 ++ (b2 ++ (b3 ++ (b4 ++
        (b5 ++ (b6 ++ (b7 ++ (b8 ++ (b9 ++ (b10 ++ (b11 ++ (b12 ++ b13))))))))))), ?_, by simp⟩
      simp only [exportMat, Out.all, hw1, hw2, hw3, hw4, hw5, hw6, hw7, hw8, hw9, hw10, hw11, hc,
        if_true, writeFloat3?, hw12, hw13, Out.seq_nil, Out.mk_none_seq]
    · have hc' : (!k.isSkinned && version == 11) = false := by simpa using hc
      simp only [hc', Bool.false_eq_true, if_false, P.pure_ok] at h
      obtain ⟨rfl, rfl⟩ := h
      refine ⟨⟨ha, hl, by simp only [hc']; rfl, by simp only [hc']; rfl⟩, b1 ++ (b2 ++ (b3 ++ (b4 ++
        (b5 ++ (b6 ++ (b7 ++ (b8 ++ (b9 ++ (b10 ++ b11))))))))), ?_, by simp⟩
      simp only [exportMat, Out.all, hw1, hw2, hw3, hw4, hw5, hw6, hw7, hw8, hw9, hw10, hw11, hc',
        if_false, Bool.false_eq_true, Out.seq_nil, Out.mk_none_seq]
  complete {a bs} r hv h := by
    obtain ⟨ha, hl, hmn, hmx⟩ := hv
    simp only [exportMat, Out.all, Out.seq_ok, Out.nil_ok] at h
    obtain ⟨b1, _, h1, ⟨b2, _, h2, ⟨b3, _, h3, ⟨b4, _, h4, ⟨b5, _, h5, ⟨b6, _, h6, ⟨b7, _, h7,
      ⟨b8, _, h8, ⟨b9, _, h9, ⟨b10, _, h10, ⟨b11, _, h11, ⟨b12, _, h12, rfl, rfl⟩, rfl⟩, rfl⟩, rfl⟩,
      rfl⟩, rfl⟩, rfl⟩, rfl⟩, rfl⟩, rfl⟩, rfl⟩, rfl⟩ := h
    simp only [loadMat, P.bind_ok, List.append_assoc]
    refine ⟨_, _, (alpha_inv pl k).complete _ ha h1,
      _, _, (readString_inv pl).complete _ trivial h2,
      _, _, (readString_inv pl).complete _ trivial h3,
      _, _, (readLong_inv pl).complete _ trivial h4,
      _, _, ((readString_inv pl).rep _).complete _ ⟨hl, by simp⟩ h5,
      _, _, (readLong_inv pl).complete _ trivial h6,
      _, _, (readLong_inv pl).complete _ trivial h7,
      _, _, (readLong_inv pl).complete _ trivial h8,
      _, _, (readLong_inv pl).complete _ trivial h9,
      _, _, (readLong_inv pl).complete _ trivial h10,
      _, _, (readLong_inv pl).complete _ trivial h11, ?_⟩
    by_cases hc : (!k.isSkinned && version == 11) = true
    · rw [hc, Option.isSome_iff_exists] at hmn hmx
      obtain ⟨mn, hmn⟩ := hmn
      obtain ⟨mx, hmx⟩ := hmx
      simp only [hc, if_true, hmn, hmx, writeFloat3?, Out.seq_ok] at h12
      obtain ⟨b13, _, h13, ⟨b14, _, h14, h15, rfl⟩, rfl⟩ := h12
      rw [Out.nil_ok] at h15
      subst h15
      simp only [hc, if_true, P.bind_ok, P.pure_ok, List.append_assoc, List.nil_append]
      refine ⟨_, _, (readFloat3_inv pl).complete _ trivial h13, _, _,
        (readFloat3_inv pl).complete _ trivial h14, ?_, rfl⟩
      rw [← hmn, ← hmx]
    · have hc' : (!k.isSkinned && version == 11) = false := by simpa using hc
      rw [hc'] at hmn hmx
      simp only [hc', Bool.false_eq_true, if_false, Out.nil_ok] at h12
      subst h12
      simp only [hc', Bool.false_eq_true, if_false, P.pure_ok, List.nil_append, and_true]
      rw [Option.isSome_eq_false_iff, Option.isNone_iff_eq_none] at hmn hmx
      cases a; simp_all

theorem loadLodMaterials_inv (pl : Plat) (version : Int) (k : Kind) (l0 : Lod W) :
    Inverts (loadLodMaterials pl version k l0) (exportLodMaterials pl version k)
      (fun l => LodMatsWF k version l ∧
        { l0 with matnum := l.matnum, materials := l.materials } = l) where
  sound {s a r} h := by
    simp only [loadLodMaterials, P.bind_ok, P.pure_ok] at h
    obtain ⟨n, s1, h1, ms, s2, h2, rfl, rfl⟩ := h
    obtain ⟨_, b1, hw1, rfl⟩ := (readLong_inv pl).sound h1
    obtain ⟨⟨hl, hm⟩, b2, hw2, rfl⟩ := ((loadMat_inv pl version k).rep _).sound h2
    refine ⟨⟨⟨hl, hm⟩, rfl⟩, b1 ++ b2, ?_, by simp⟩
    simp [exportLodMaterials, Out.all, hw1, hw2, Out.nil]
  complete {a bs} r hv h := by
    obtain ⟨⟨hl, hm⟩, he⟩ := hv
    simp only [exportLodMaterials, Out.all, Out.seq_ok, Out.nil_ok] at h
    obtain ⟨b1, _, h1, ⟨b2, _, h2, rfl, rfl⟩, rfl⟩ := h
    simp only [loadLodMaterials, P.bind_ok, P.pure_ok, List.append_assoc]
    exact ⟨_, _, (readLong_inv pl).complete _ trivial h1, _, _,
      ((loadMat_inv pl version k).rep _).complete _ ⟨hl, hm⟩ h2, he, rfl⟩

theorem loadGeomNodes_inv (pl : Plat) (version : Int) (k : Kind) (n : Int) :
    Inverts (loadGeomNodes (F := W) pl version k n)
      (fun g => .each (exportLodNodes pl version k) g.lods)
      (fun g => g.lodnum = n ∧ g.lods.length = n.toNat ∧
        ∀ l ∈ g.lods, LodNodesWF k version l ∧ l.matnum = 0 ∧ l.materials = []) where
  sound {s a r} h := by
    simp only [loadGeomNodes, P.bind_ok, P.pure_ok] at h
    obtain ⟨ls, s1, h1, rfl, rfl⟩ := h
    obtain ⟨⟨hl, hm⟩, b1, hw1, rfl⟩ := ((loadLodNodes_inv pl version k).rep _).sound h1
    exact ⟨⟨rfl, hl, hm⟩, b1, hw1, rfl⟩
  complete {a bs} r hv h := by
    obtain ⟨rfl, hl, hm⟩ := hv
    simp only [loadGeomNodes, P.bind_ok, P.pure_ok]
    exact ⟨_, _, ((loadLodNodes_inv pl version k).rep _).complete r ⟨hl, hm⟩ h, rfl, rfl⟩

theorem loadGeomMaterials_inv (pl : Plat) (version : Int) (k : Kind) (g0 : Geom W) :
    Inverts (loadGeomMaterials pl version k g0)
      (fun g => .each (exportLodMaterials pl version k) g.lods)
      (fun g => g.lodnum = g0.lodnum ∧ List.Forall₂ (fun l0 l => LodMatsWF k version l ∧
        { l0 with matnum := l.matnum, materials := l.materials } = l) g0.lods g.lods) where
  sound {s a r} h := by
    simp only [loadGeomMaterials, P.bind_ok, P.pure_ok] at h
    obtain ⟨ls, s1, h1, rfl, rfl⟩ := h
    obtain ⟨hv, b1, hw1, rfl⟩ := (Inverts.each (loadLodMaterials_inv pl version k) _).sound h1
    exact ⟨⟨rfl, hv⟩, b1, hw1, rfl⟩
  complete {a bs} r hv h := by
    obtain ⟨he, hv⟩ := hv
    simp only [loadGeomMaterials, P.bind_ok, P.pure_ok]
    refine ⟨_, _, (Inverts.each (loadLodMaterials_inv pl version k) _).complete r hv h, ?_, rfl⟩
    rw [← he]

theorem u2_inv' (pl : Plat) (c : Bool) :
    Inverts (if c = true then pure 0 else readLong pl)
      (fun v => if c = true then .nil else writeLong pl v) (fun v => c = true → v = 0) where
  sound {s a r} hs := by
    cases c with
    | true =>
      simp only [if_true, P.pure_ok] at hs
      obtain ⟨rfl, rfl⟩ := hs
      exact ⟨fun _ => rfl, [], rfl, rfl⟩
    | false =>
      obtain ⟨_, b, hw, rfl⟩ := (readLong_inv pl).sound hs
      exact ⟨by simp, b, hw, rfl⟩
  complete {a bs} r hv hw := by
    cases c with
    | true =>
      simp only [if_true, Out.nil_ok] at hw
      subst hw
      rw [hv rfl]; rfl
    | false => exact (readLong_inv pl).complete r trivial hw

theorem u2_inv (pl : Plat) (k : Kind) :
    Inverts (loadU2 pl k)
      (fun v => if k.isSkinned = true then .nil else writeLong pl v)
      (fun v => k.isSkinned = true → v = 0) := by
  unfold loadU2
  exact u2_inv' pl k.isSkinned

/-- The bytes of a mesh file: `exportMesh` with an index block also for a bare index. -/
def fileBytes (pl : Plat) (m : Mesh W) : Out :=
  .all [exportHead pl m.head, writeByte m.u1,
    writeLong pl m.geomnum, .each (fun g => writeLong pl g.lodnum) m.geoms,
    writeLong pl m.vertattribnum, .each (exportVAttr pl) m.vattrs,
    writeLong pl m.vertformat, writeLong pl m.vertstride, writeLong pl m.vertnum,
    .each (writeFloat pl) m.vertices,
    writeLong pl m.indexnum, indexBytes pl m.index,
    if m.kind.isSkinned then .nil else writeLong pl m.u2,
    .each (fun g => .each (exportLodNodes pl m.head.version m.kind) g.lods) m.geoms,
    .each (fun g => .each (exportLodMaterials pl m.head.version m.kind) g.lods) m.geoms]

theorem exportMesh_many {pl : Plat} {m : Mesh W} {l : List Int} (h : m.index = .many l) :
    exportMesh pl m = fileBytes pl m := by
  simp only [exportMesh, fileBytes, h, exportIndex, indexBytes]

theorem each_map {f : β → Out} (g : α → β) (l : List α) :
    Out.each f (l.map g) = Out.each (fun a => f (g a)) l := by
  induction l with
  | nil => rfl
  | cons a l ih => simp [Out.each, ih]

theorem each_congr {f g : α → Out} {l : List α} (h : ∀ a ∈ l, f a = g a) :
    Out.each f l = Out.each g l := by
  induction l with
  | nil => rfl
  | cons a l ih =>
    simp only [Out.each]
    rw [h a (by simp), ih (fun x hx => h x (by simp [hx]))]

theorem each_forall₂ {f : α → Out} {g : β → Out} {R : α → β → Prop} {l : List α} {l' : List β}
    (h : List.Forall₂ R l l') (hR : ∀ a b, R a b → f a = g b) : Out.each f l = Out.each g l' := by
  induction h with
  | nil => rfl
  | cons hab _ ih => simp only [Out.each, hR _ _ hab, ih]

/-- A lod as it is between the two loading passes. -/
def Lod.strip (l : Lod W) : Lod W := { l with matnum := 0, materials := [] }

/-- A geom as it is between the two loading passes. -/
def Geom.strip (g : Geom W) : Geom W := { g with lods := g.lods.map Lod.strip }

theorem exportLodNodes_strip (pl : Plat) (v : Int) (k : Kind) (l : Lod W) :
    exportLodNodes pl v k l.strip = exportLodNodes pl v k l := rfl

theorem loadBody_inv (pl : Plat) (k : Kind) :
    Inverts (loadBody (F := W) pl k) (fileBytes pl) (fun m => MeshWF m ∧ m.kind = k) where
  sound {s a r} h := by
    simp only [loadBody, P.bind_ok, P.pure_ok] at h
    obtain ⟨hd, s1, h1, u1, s2, h2, gn, s3, h3, lns, s4, h4, van, s5, h5, vas, s6, h6,
      vf, s7, h7, vs, s8, h8, vn, s9, h9, vts, s10, h10, xn, s11, h11, ix, s12, h12,
      u2, s13, h13, gs0, s14, h14, gs, s15, h15, rfl, rfl⟩ := h
    obtain ⟨_, b1, hw1, rfl⟩ := (loadHead_inv pl).sound h1
    obtain ⟨_, b2, hw2, rfl⟩ := readByte_inv.sound h2
    obtain ⟨_, b3, hw3, rfl⟩ := (readLong_inv pl).sound h3
    obtain ⟨⟨hgl, _⟩, b4, hw4, rfl⟩ := ((readLong_inv pl).rep _).sound h4
    obtain ⟨_, b5, hw5, rfl⟩ := (readLong_inv pl).sound h5
    obtain ⟨⟨hva, _⟩, b6, hw6, rfl⟩ := ((loadVAttr_inv pl).rep _).sound h6
    obtain ⟨_, b7, hw7, rfl⟩ := (readLong_inv pl).sound h7
    obtain ⟨_, b8, hw8, rfl⟩ := (readLong_inv pl).sound h8
    obtain ⟨_, b9, hw9, rfl⟩ := (readLong_inv pl).sound h9
    obtain ⟨⟨hvf, hvl, hv1⟩, b10, hw10, rfl⟩ := (loadVertices_inv pl _ _ _).sound h10
    obtain ⟨_, b11, hw11, rfl⟩ := (readLong_inv pl).sound h11
    obtain ⟨hix, b12, hw12, rfl⟩ := (readShort_inv pl _).sound h12
    obtain ⟨hu2, b13, hw13, rfl⟩ := (u2_inv pl k).sound h13
    obtain ⟨hg0, b14, hw14, rfl⟩ := (Inverts.each (loadGeomNodes_inv pl hd.version k) _).sound h14
    obtain ⟨hg1, b15, hw15, rfl⟩ :=
      (Inverts.each (loadGeomMaterials_inv pl hd.version k) _).sound h15
    have hlen0 := hg0.length_eq
    have hlen1 := hg1.length_eq
    have hw4' : Out.each (fun g : Geom W => writeLong pl g.lodnum) gs = ⟨b4, none⟩ := by
      rw [← hw4]
      have e1 := each_forall₂ (f := writeLong pl) (g := fun g : Geom W => writeLong pl g.lodnum) hg0
        (fun a b h => by rw [h.1])
      have e2 := each_forall₂ (f := fun g : Geom W => writeLong pl g.lodnum)
        (g := fun g : Geom W => writeLong pl g.lodnum) hg1 (fun a b h => by rw [h.1])
      rw [e1, e2]
    have hw14' : Out.each (fun g : Geom W => .each (exportLodNodes pl hd.version k) g.lods) gs
        = ⟨b14, none⟩ := by
      rw [← hw14]
      exact (each_forall₂ hg1 (fun a b h => each_forall₂ h.2
        (fun l0 l hl => by rw [← hl.2]; rfl))).symm
    refine ⟨⟨⟨by simp only; omega, ?_, hva, hvf, hvl, hv1, hix, hu2⟩, rfl⟩,
      b1 ++ (b2 ++ (b3 ++ (b4 ++ (b5 ++ (b6 ++ (b7 ++ (b8 ++ (b9 ++ (b10 ++ (b11 ++ (b12 ++ (b13 ++
      (b14 ++ b15))))))))))))), ?_, by simp only [List.append_assoc]⟩
    · intro g hg
      simp only at hg ⊢
      obtain ⟨i, hi, rfl⟩ := List.getElem_of_mem hg
      have r1 := List.forall₂_iff_get.1 hg1 |>.2 i (by omega) hi
      have r0 := List.forall₂_iff_get.1 hg0 |>.2 i (by omega) (by omega)
      simp only [List.get_eq_getElem] at r0 r1
      refine ⟨?_, ?_, ?_⟩
      · rw [r1.1, ← r1.2.length_eq, r0.2.1, r0.1]
      · intro l hl
        obtain ⟨j, hj, rfl⟩ := List.getElem_of_mem hl
        have r2 := List.forall₂_iff_get.1 r1.2 |>.2 j (by rw [r1.2.length_eq]; exact hj) hj
        simp only [List.get_eq_getElem] at r2
        have r3 := (r0.2.2 _ (List.getElem_mem (by rw [r1.2.length_eq]; exact hj))).1
        rw [← r2.2]
        exact ⟨r3.1, r3.2, r3.3, r3.4, r3.5, r3.6⟩
      · intro l hl
        obtain ⟨j, hj, rfl⟩ := List.getElem_of_mem hl
        have r2 := List.forall₂_iff_get.1 r1.2 |>.2 j (by rw [r1.2.length_eq]; exact hj) hj
        exact r2.1
    · simp only [fileBytes, Out.all, hw1, hw2, hw3, hw4', hw5, hw6, hw7, hw8, hw9, hw10, hw11, hw12,
        hw13, hw14', hw15, Out.seq_nil, Out.mk_none_seq]
  complete {a bs} r hv h := by
    obtain ⟨⟨hgl, hg, hva, hvf, hvl, hv1, hix, hu2⟩, rfl⟩ := hv
    simp only [fileBytes, Out.all, Out.seq_ok, Out.nil_ok] at h
    obtain ⟨b1, _, h1, ⟨b2, _, h2, ⟨b3, _, h3, ⟨b4, _, h4, ⟨b5, _, h5, ⟨b6, _, h6, ⟨b7, _, h7,
      ⟨b8, _, h8, ⟨b9, _, h9, ⟨b10, _, h10, ⟨b11, _, h11, ⟨b12, _, h12, ⟨b13, _, h13, ⟨b14, _, h14,
      ⟨b15, _, h15, rfl, rfl⟩, rfl⟩, rfl⟩, rfl⟩,
      rfl⟩, rfl⟩, rfl⟩, rfl⟩, rfl⟩, rfl⟩, rfl⟩, rfl⟩, rfl⟩, rfl⟩, rfl⟩ := h
    have h4' : Out.each (writeLong pl) (a.geoms.map (·.lodnum)) = ⟨b4, none⟩ := by
      rw [each_map]; exact h4
    have h14' : Out.each (fun g : Geom W => .each (exportLodNodes pl a.head.version a.kind) g.lods)
        (a.geoms.map Geom.strip) = ⟨b14, none⟩ := by
      rw [each_map, ← h14]
      refine each_congr fun g _ => ?_
      simp only [Geom.strip, each_map, exportLodNodes_strip]
    have hf0 : List.Forall₂ (fun (n : Int) (g : Geom W) => g.lodnum = n ∧ g.lods.length = n.toNat ∧
        ∀ l ∈ g.lods, LodNodesWF a.kind a.head.version l ∧ l.matnum = 0 ∧ l.materials = [])
        (a.geoms.map (·.lodnum)) (a.geoms.map Geom.strip) := by
      rw [List.forall₂_map_left_iff, List.forall₂_map_right_iff, List.forall₂_same]
      intro g hgm
      have hw := hg g hgm
      refine ⟨rfl, by simpa [Geom.strip] using hw.lods, ?_⟩
      intro l hl
      simp only [Geom.strip, List.mem_map] at hl
      obtain ⟨l, hl, rfl⟩ := hl
      have r3 := hw.nodes l hl
      exact ⟨⟨r3.1, r3.2, r3.3, r3.4, r3.5, r3.6⟩, rfl, rfl⟩
    have hf1 : List.Forall₂ (fun (g0 g : Geom W) => g.lodnum = g0.lodnum ∧
        List.Forall₂ (fun l0 l => LodMatsWF a.kind a.head.version l ∧
        { l0 with matnum := l.matnum, materials := l.materials } = l) g0.lods g.lods)
        (a.geoms.map Geom.strip) a.geoms := by
      rw [List.forall₂_map_left_iff, List.forall₂_same]
      intro g hgm
      refine ⟨rfl, ?_⟩
      simp only [Geom.strip]
      rw [List.forall₂_map_left_iff, List.forall₂_same]
      intro l hl
      exact ⟨(hg g hgm).mats l hl, rfl⟩
    simp only [loadBody, P.bind_ok, P.pure_ok, List.append_assoc]
    exact ⟨_, _, (loadHead_inv pl).complete _ trivial h1,
      _, _, readByte_inv.complete _ trivial h2,
      _, _, (readLong_inv pl).complete _ trivial h3,
      _, _, ((readLong_inv pl).rep _).complete _ ⟨by simpa using hgl, by simp⟩ h4',
      _, _, (readLong_inv pl).complete _ trivial h5,
      _, _, ((loadVAttr_inv pl).rep _).complete _ ⟨hva, by simp⟩ h6,
      _, _, (readLong_inv pl).complete _ trivial h7,
      _, _, (readLong_inv pl).complete _ trivial h8,
      _, _, (readLong_inv pl).complete _ trivial h9,
      _, _, (loadVertices_inv pl _ _ _).complete _ ⟨hvf, hvl, hv1⟩ h10,
      _, _, (readLong_inv pl).complete _ trivial h11,
      _, _, (readShort_inv pl _).complete _ hix h12,
      _, _, (u2_inv pl _).complete _ hu2 h13,
      _, _, (Inverts.each (loadGeomNodes_inv pl _ _) _).complete _ hf0 h14',
      _, _, (Inverts.each (loadGeomMaterials_inv pl _ _) _).complete _ hf1 h15, rfl, rfl⟩

end Bf2
