import Verif.OldStagesSpec
import Verif.OldHistoryLemmas
import Verif.OldProgramsLemmas
import Verif.ReadmeLemmas

/-!
# The readers and writers of single parts
-/

namespace Bf2

/-! ## Reading -/

section
variable {F : Type} [FCodec F]

omit [FCodec F] in
theorem part_ok {α : Type} {p : P (OldPart F)} {step : OldPart F → P α} {f : OldPart F → α → OldPart F}
    {s r r' : Bytes} {x : OldPart F} {a : α} (h : p s = .ok (x, r)) (h' : step x r = .ok (a, r')) :
    (do let y ← p; let z ← step y; pure (f y z) : P (OldPart F)) s = .ok (f x a, r') := by
  rw [P.bind_run, h]
  simp only [P.bind_run, h', P.pure_run]

omit [FCodec F] in
theorem part_err {α : Type} {p : P (OldPart F)} {step : OldPart F → P α} {f : OldPart F → α → OldPart F}
    {s r : Bytes} {x : OldPart F} {e : Err} (h : p s = .ok (x, r)) (h' : step x r = .error e) :
    (do let y ← p; let z ← step y; pure (f y z) : P (OldPart F)) s = .error e := by
  rw [P.bind_run, h]
  simp only [P.bind_run, h']

omit [FCodec F] in
theorem part_before {α : Type} {p : P (OldPart F)} {step : OldPart F → P α} {f : OldPart F → α → OldPart F}
    {s : Bytes} {e : Err} (h : p s = .error e) :
    (do let y ← p; let z ← step y; pure (f y z) : P (OldPart F)) s = .error e := by
  rw [P.bind_run, h]

theorem each_lodnums {pl : Plat} {v : Int} {k : Kind} : ∀ {ns : List Int} {s r : Bytes} {gs : List (OldGeom F)},
    P.each (oldLoadGeomNodes pl v k) ns s = .ok (gs, r) → gs.map (·.lodnum) = ns
  | [], s, r, gs, h => by
    cases h
    rfl
  | n :: ns, s, r, gs, h => by
    rw [P.each, P.bind_run] at h
    unfold oldLoadGeomNodes at h
    rw [P.bind_run] at h
    rcases h1 : P.rep (oldLoadLodNodes (F := F) pl v k) n.toNat s with e | ⟨ls, r1⟩
    · rw [h1] at h
      cases h
    · rw [h1] at h
      simp only [P.pure_run, P.bind_run] at h
      rcases h2 : P.each (oldLoadGeomNodes (F := F) pl v k) ns r1 with e | ⟨hs, r2⟩
      · unfold oldLoadGeomNodes at h2
        rw [h2] at h
        cases h
      · have ih := each_lodnums h2
        unfold oldLoadGeomNodes at h2
        rw [h2] at h
        simp only [Except.ok.injEq, Prod.mk.injEq] at h
        obtain ⟨rfl, -⟩ := h
        rw [List.map_cons, ih]

theorem scan_lodnums {pl : Plat} {v : Int} {k : Kind} : ∀ {gs : List (OldGeom F)} {l : Option Int} {s r : Bytes}
    {x : Option Int × List (OldGeom F)},
    P.scan (oldLoadGeomMaterials pl v k) l gs s = .ok (x, r) → x.2.map (·.lodnum) = gs.map (·.lodnum)
  | [], l, s, r, x, h => by
    cases h
    rfl
  | g :: gs, l, s, r, x, h => by
    rw [P.scan, P.bind_run] at h
    rcases h1 : oldLoadGeomMaterials (F := F) pl v k l g s with e | ⟨⟨l1, g1⟩, r1⟩
    · rw [h1] at h
      cases h
    · rw [h1] at h
      simp only [P.bind_run] at h
      rcases h2 : P.scan (oldLoadGeomMaterials (F := F) pl v k) l1 gs r1 with e | ⟨⟨l2, g2⟩, r2⟩
      · rw [h2] at h
        cases h
      · have ih := scan_lodnums h2
        rw [h2] at h
        cases h
        have : g1.lodnum = g.lodnum := by
          unfold oldLoadGeomMaterials at h1
          rw [P.bind_run] at h1
          rcases h3 : P.scan (oldLoadLodMaterials (F := F) pl v k) l g.lods s with e | ⟨⟨l3, g3⟩, r3⟩
          · rw [h3] at h1
            cases h1
          · rw [h3] at h1
            cases h1
            rfl
        simp only [List.map_cons, this] at ih ⊢
        rw [ih]

/-- A reader raises what an earlier one raises. -/
theorem readParts_raise {pl : Plat} {k : Kind} {s : Bytes} {e : Err} {n : Nat} (one : 1 ≤ n) (h : n ≤ 15)
    (he : readParts (F := F) pl k n s = .error e) : readParts (F := F) pl k 15 s = .error e := by
  have u2 : readParts (F := F) pl k 1 s = .error e → readParts (F := F) pl k 2 s = .error e :=
    fun h => part_before h
  have u3 : readParts (F := F) pl k 2 s = .error e → readParts (F := F) pl k 3 s = .error e :=
    fun h => part_before h
  have u4 : readParts (F := F) pl k 3 s = .error e → readParts (F := F) pl k 4 s = .error e :=
    fun h => part_before h
  have u5 : readParts (F := F) pl k 4 s = .error e → readParts (F := F) pl k 5 s = .error e :=
    fun h => part_before h
  have u6 : readParts (F := F) pl k 5 s = .error e → readParts (F := F) pl k 6 s = .error e :=
    fun h => part_before h
  have u7 : readParts (F := F) pl k 6 s = .error e → readParts (F := F) pl k 7 s = .error e :=
    fun h => part_before h
  have u8 : readParts (F := F) pl k 7 s = .error e → readParts (F := F) pl k 8 s = .error e :=
    fun h => part_before h
  have u9 : readParts (F := F) pl k 8 s = .error e → readParts (F := F) pl k 9 s = .error e :=
    fun h => part_before h
  have u10 : readParts (F := F) pl k 9 s = .error e → readParts (F := F) pl k 10 s = .error e :=
    fun h => part_before h
  have u11 : readParts (F := F) pl k 10 s = .error e → readParts (F := F) pl k 11 s = .error e :=
    fun h => part_before h
  have u12 : readParts (F := F) pl k 11 s = .error e → readParts (F := F) pl k 12 s = .error e :=
    fun h => part_before h
  have u13 : readParts (F := F) pl k 12 s = .error e → readParts (F := F) pl k 13 s = .error e :=
    fun h => part_before h
  have u14 : readParts (F := F) pl k 13 s = .error e → readParts (F := F) pl k 14 s = .error e :=
    fun h => part_before h
  have u15 : readParts (F := F) pl k 14 s = .error e → readParts (F := F) pl k 15 s = .error e :=
    fun h => part_before h
  have up : ∀ j, 1 ≤ j → j < 15 → readParts (F := F) pl k j s = .error e →
      readParts (F := F) pl k (j + 1) s = .error e := by
    intro j h1 h2
    match j, h1, h2 with
    | 1, _, _ => exact u2
    | 2, _, _ => exact u3
    | 3, _, _ => exact u4
    | 4, _, _ => exact u5
    | 5, _, _ => exact u6
    | 6, _, _ => exact u7
    | 7, _, _ => exact u8
    | 8, _, _ => exact u9
    | 9, _, _ => exact u10
    | 10, _, _ => exact u11
    | 11, _, _ => exact u12
    | 12, _, _ => exact u13
    | 13, _, _ => exact u14
    | 14, _, _ => exact u15
  have all : ∀ j, n ≤ j → j ≤ 15 → readParts (F := F) pl k j s = .error e := by
    intro j hj
    induction j, hj using Nat.le_induction with
    | base => exact fun _ => he
    | succ j hj ih => exact fun h' => up j (by omega) (by omega) (ih (by omega))
  exact all 15 h (le_refl _)

/-- The last reader and the loader. -/
theorem readParts_load (pl : Plat) (k : Kind) (s : Bytes) :
    match oldLoadBody (F := F) pl k s with
    | .ok (o, r) => readParts pl k 15 s = .ok (o.upTo 15, r)
    | .error e => readParts (F := F) pl k 15 s = .error e := by
  unfold oldLoadBody
  rcases h1 : loadHead pl s with e | ⟨head, s1⟩
  · rw [P.bind_run, h1]
    have q : readParts (F := F) pl k 1 s = .error e := by
      change (loadHead pl >>= fun head => pure { (OldPart.fresh : OldPart F) with head := some head }) s = _
      rw [P.bind_run, h1]
    exact readParts_raise (by omega) (by omega) q
  rw [P.bind_run, h1]
  simp only
  have p1 : readParts (F := F) pl k 1 s =
      .ok (⟨some head, 0, 0, [], 0, [], 4, 0, 0, [], 0, [], 0, []⟩, s1) := by
    change (loadHead pl >>= fun head => pure { (OldPart.fresh : OldPart F) with head := some head }) s = _
    rw [P.bind_run, h1]
    rfl
  rcases h2 : readByte s1 with e | ⟨u1, s2⟩
  · rw [P.bind_run, h2]
    have q : readParts (F := F) pl k 2 s = .error e := part_err p1 h2
    exact readParts_raise (by omega) (by omega) q
  rw [P.bind_run, h2]
  simp only
  have p2 : readParts (F := F) pl k 2 s =
      .ok (⟨some head, u1, 0, [], 0, [], 4, 0, 0, [], 0, [], 0, []⟩, s2) := part_ok p1 h2
  rcases h3 : readLong pl s2 with e | ⟨geomnum, s3⟩
  · rw [P.bind_run, h3]
    have q : readParts (F := F) pl k 3 s = .error e := part_err p2 h3
    exact readParts_raise (by omega) (by omega) q
  rw [P.bind_run, h3]
  simp only
  have p3 : readParts (F := F) pl k 3 s =
      .ok (⟨some head, u1, geomnum, [], 0, [], 4, 0, 0, [], 0, [], 0, []⟩, s3) := part_ok p2 h3
  rcases h4 : P.rep (readLong pl) geomnum.toNat s3 with e | ⟨lodnums, s4⟩
  · rw [P.bind_run, h4]
    have q : readParts (F := F) pl k 4 s = .error e := part_err p3 h4
    exact readParts_raise (by omega) (by omega) q
  rw [P.bind_run, h4]
  simp only
  have p4 : readParts (F := F) pl k 4 s =
      .ok (⟨some head, u1, geomnum, lodnums, 0, [], 4, 0, 0, [], 0, [], 0, []⟩, s4) := part_ok p3 h4
  rcases h5 : readLong pl s4 with e | ⟨vertattribnum, s5⟩
  · rw [P.bind_run, h5]
    have q : readParts (F := F) pl k 5 s = .error e := part_err p4 h5
    exact readParts_raise (by omega) (by omega) q
  rw [P.bind_run, h5]
  simp only
  have p5 : readParts (F := F) pl k 5 s =
      .ok (⟨some head, u1, geomnum, lodnums, vertattribnum, [], 4, 0, 0, [], 0, [], 0, []⟩, s5) := part_ok p4 h5
  rcases h6 : P.rep (oldLoadVAttr pl) vertattribnum.toNat s5 with e | ⟨vattrs, s6⟩
  · rw [P.bind_run, h6]
    have q : readParts (F := F) pl k 6 s = .error e := part_err p5 h6
    exact readParts_raise (by omega) (by omega) q
  rw [P.bind_run, h6]
  simp only
  have p6 : readParts (F := F) pl k 6 s =
      .ok (⟨some head, u1, geomnum, lodnums, vertattribnum, vattrs, 4, 0, 0, [], 0, [], 0, []⟩, s6) := part_ok p5 h6
  rcases h7 : readLong pl s6 with e | ⟨vertformat, s7⟩
  · rw [P.bind_run, h7]
    have q : readParts (F := F) pl k 7 s = .error e := part_err p6 h7
    exact readParts_raise (by omega) (by omega) q
  rw [P.bind_run, h7]
  simp only
  have p7 : readParts (F := F) pl k 7 s =
      .ok (⟨some head, u1, geomnum, lodnums, vertattribnum, vattrs, vertformat, 0, 0, [], 0, [], 0, []⟩, s7) := part_ok p6 h7
  rcases h8 : readLong pl s7 with e | ⟨vertstride, s8⟩
  · rw [P.bind_run, h8]
    have q : readParts (F := F) pl k 8 s = .error e := part_err p7 h8
    exact readParts_raise (by omega) (by omega) q
  rw [P.bind_run, h8]
  simp only
  have p8 : readParts (F := F) pl k 8 s =
      .ok (⟨some head, u1, geomnum, lodnums, vertattribnum, vattrs, vertformat, vertstride, 0, [], 0, [], 0, []⟩, s8) := part_ok p7 h8
  rcases h9 : readLong pl s8 with e | ⟨vertnum, s9⟩
  · rw [P.bind_run, h9]
    have q : readParts (F := F) pl k 9 s = .error e := part_err p8 h9
    exact readParts_raise (by omega) (by omega) q
  rw [P.bind_run, h9]
  simp only
  have p9 : readParts (F := F) pl k 9 s =
      .ok (⟨some head, u1, geomnum, lodnums, vertattribnum, vattrs, vertformat, vertstride, vertnum, [], 0, [], 0, []⟩, s9) := part_ok p8 h9
  rcases h10 : oldLoadVertices (F := F) pl vertstride vertformat vertnum s9 with e | ⟨vertices, s10⟩
  · rw [P.bind_run, h10]
    have q : readParts (F := F) pl k 10 s = .error e := part_err p9 h10
    exact readParts_raise (by omega) (by omega) q
  rw [P.bind_run, h10]
  simp only
  have p10 : readParts (F := F) pl k 10 s =
      .ok (⟨some head, u1, geomnum, lodnums, vertattribnum, vattrs, vertformat, vertstride, vertnum, vertices, 0, [], 0, []⟩, s10) := part_ok p9 h10
  rcases h11 : readLong pl s10 with e | ⟨indexnum, s11⟩
  · rw [P.bind_run, h11]
    have q : readParts (F := F) pl k 11 s = .error e := part_err p10 h11
    exact readParts_raise (by omega) (by omega) q
  rw [P.bind_run, h11]
  simp only
  have p11 : readParts (F := F) pl k 11 s =
      .ok (⟨some head, u1, geomnum, lodnums, vertattribnum, vattrs, vertformat, vertstride, vertnum, vertices, indexnum, [], 0, []⟩, s11) := part_ok p10 h11
  rcases h12 : readTuple (readShort1 pl) indexnum s11 with e | ⟨index, s12⟩
  · rw [P.bind_run, h12]
    have q : readParts (F := F) pl k 12 s = .error e := part_err p11 h12
    exact readParts_raise (by omega) (by omega) q
  rw [P.bind_run, h12]
  simp only
  have p12 : readParts (F := F) pl k 12 s =
      .ok (⟨some head, u1, geomnum, lodnums, vertattribnum, vattrs, vertformat, vertstride, vertnum, vertices, indexnum, index, 0, []⟩, s12) := part_ok p11 h12
  rcases h13 : loadU2 pl k s12 with e | ⟨u2, s13⟩
  · rw [P.bind_run, h13]
    have q : readParts (F := F) pl k 13 s = .error e := part_err p12 h13
    exact readParts_raise (by omega) (by omega) q
  rw [P.bind_run, h13]
  simp only
  have p13 : readParts (F := F) pl k 13 s =
      .ok (⟨some head, u1, geomnum, lodnums, vertattribnum, vattrs, vertformat, vertstride, vertnum, vertices, indexnum, index, u2, []⟩, s13) := part_ok p12 h13
  rcases h14 : P.each (oldLoadGeomNodes (F := F) pl head.version k) lodnums s13 with e | ⟨geoms0, s14⟩
  · rw [P.bind_run, h14]
    have q : readParts (F := F) pl k 14 s = .error e := part_err p13 h14
    exact readParts_raise (by omega) (by omega) q
  rw [P.bind_run, h14]
  simp only
  have p14 : readParts (F := F) pl k 14 s =
      .ok (⟨some head, u1, geomnum, lodnums, vertattribnum, vattrs, vertformat, vertstride, vertnum, vertices, indexnum, index, u2, geoms0⟩, s14) := part_ok p13 h14
  rcases h15 : P.scan (oldLoadGeomMaterials (F := F) pl head.version k) none geoms0 s14 with e | ⟨⟨last, geoms⟩, s15⟩
  · rw [P.bind_run, h15]
    have q : readParts (F := F) pl k 15 s = .error e := part_err p14 h15
    exact readParts_raise (by omega) (by omega) q
  rw [P.bind_run, h15]
  simp only
  have p15 : readParts (F := F) pl k 15 s =
      .ok (⟨some head, u1, geomnum, lodnums, vertattribnum, vattrs, vertformat, vertstride, vertnum, vertices, indexnum, index, u2, geoms⟩, s15) := by
    have : readParts (F := F) pl k 15 = (readParts pl k 14 >>= fun p =>
        P.scan (oldLoadGeomMaterials pl p.version k) none p.geoms >>= fun x => pure { p with geoms := x.2 }) := rfl
    rw [this]
    exact part_ok (step := fun p => P.scan (oldLoadGeomMaterials pl p.version k) none p.geoms)
      (f := fun p (x : Option Int × List (OldGeom F)) => { p with geoms := x.2 }) p14 h15
  rw [P.pure_run]
  simp only
  have e : lodnums = geoms.map (·.lodnum) := (each_lodnums h14).symm.trans (scan_lodnums h15).symm
  rw [p15, e]
  rfl

end

/-! ## Writing -/

section
variable {F : Type} [FCodec F]

/-- The parts of a file, from 1. -/
def partOut (pl : Plat) (m : OldMesh F) : Nat → Out
  | 0 => .nil
  | 1 => oldWriteHead pl m.head
  | 2 => writeByte m.u1
  | 3 => writeLong pl m.geomnum
  | 4 => .table (fun g => writeLong pl g.lodnum) m.geoms m.geomnum
  | 5 => writeLong pl m.vertattribnum
  | 6 => .table (oldWriteVAttr pl) m.vattrs m.vertattribnum
  | 7 => writeLong pl m.vertformat
  | 8 => writeLong pl m.vertstride
  | 9 => writeLong pl m.vertnum
  | 10 => packFloats pl m.vertices
  | 11 => writeLong pl m.indexnum
  | 12 => packShorts pl m.index
  | 13 => if m.kind.isSkinned then .nil else writeLong pl m.u2
  | 14 => .each (fun g => .each (oldWriteLodNodes pl m.head.version m.kind) g.lods) m.geoms
  | _ => .each (fun g => .each (oldWriteLodMaterials pl m.head.version m.kind) g.lods) m.geoms

/-- The first `n` parts. -/
def partsOut (pl : Plat) (m : OldMesh F) : Nat → Out
  | 0 => .nil
  | n + 1 => (partsOut pl m n).seq (partOut pl m (n + 1))

def storeOut (fs : FS) (path : Str) (out : Out) : FS × Option Err :=
  match fs.ensureDir path with
  | (fs1, some e) => (fs1, some e)
  | (fs1, none) =>
    match fs1.openWrite path with
    | .error e => (fs1, some e)
    | .ok (fs2, loc) => (fs2.set loc (.file out.bytes), out.err)

theorem set_set (fs : FS) (l : Loc) (a b : Node) : (fs.set l a).set l b = fs.set l b := by
  unfold FS.set
  simp only
  congr 1
  funext q
  split <;> rfl

theorem thenAppend_storeOut (fs : FS) (path : Str) (a b : Out) :
    thenAppend (storeOut fs path a) path b = storeOut fs path (a.seq b) := by
  unfold storeOut
  rcases fs.ensureDir path with ⟨fs1, _ | e⟩
  · simp only
    rcases ho : fs1.openWrite path with e | ⟨fs2, loc⟩
    · rfl
    · simp only
      obtain ⟨bytes, _ | e⟩ := a
      · have h := openWrite_set ho bytes
        simp only [thenAppend, FS.append, h.names, h.content, set_set, Out.seq]
      · rfl
  · rfl

theorem writeParts_eq (pl : Plat) (fs : FS) (m : OldMesh F) (path : Str) {n : Nat} (h1 : 1 ≤ n) (h : n ≤ 15) :
    writeParts pl fs m path n = storeOut fs path (partsOut pl m n) := by
  have e1 : writeHeaderPart pl fs m path = storeOut fs path (partsOut pl m 1) := rfl
  have step : ∀ (x : FS × Option Err) k, x = storeOut fs path (partsOut pl m k) →
      thenAppend x path (partOut pl m (k + 1)) = storeOut fs path (partsOut pl m (k + 1)) :=
    fun x k hx => by rw [hx, thenAppend_storeOut]; rfl
  have e2 := step _ _ e1
  have e3 := step _ _ e2
  have e4 := step _ _ e3
  have e5 := step _ _ e4
  have e6 := step _ _ e5
  have e7 := step _ _ e6
  have e8 := step _ _ e7
  have e9 := step _ _ e8
  have e10 := step _ _ e9
  have e11 := step _ _ e10
  have e12 := step _ _ e11
  have e13 : writeU2Part pl fs m path = storeOut fs path (partsOut pl m 13) := by
    unfold writeU2Part
    by_cases hk : m.kind.isSkinned = true
    · rw [if_pos hk, show partsOut pl m 13 = (partsOut pl m 12).seq (partOut pl m 13) from rfl,
        show partOut pl m 13 = .nil from if_pos hk, Out.seq_nil]
      exact e12
    · have := step _ _ e12
      rw [show partOut pl m (12 + 1) = writeLong pl m.u2 from if_neg hk] at this
      rw [if_neg hk]
      exact this
  have e14 := step _ _ e13
  have e15 := step _ _ e14
  match n, h1, h with
  | 1, _, _ => exact e1
  | 2, _, _ => exact e2
  | 3, _, _ => exact e3
  | 4, _, _ => exact e4
  | 5, _, _ => exact e5
  | 6, _, _ => exact e6
  | 7, _, _ => exact e7
  | 8, _, _ => exact e8
  | 9, _, _ => exact e9
  | 10, _, _ => exact e10
  | 11, _, _ => exact e11
  | 12, _, _ => exact e12
  | 13, _, _ => exact e13
  | 14, _, _ => exact e14
  | 15, _, _ => exact e15

theorem partsOut_save (pl : Plat) (m : OldMesh F) : partsOut pl m 15 = oldSave pl m := by
  simp only [partsOut, oldSave, Out.all, Out.seq_assoc, Out.nil_seq, Out.seq_nil]
  rfl

theorem partsOut_ok (pl : Plat) (m : OldMesh F) {n : Nat} (h : (partsOut pl m n).err = none) {k : Nat} (hk : k ≤ n) :
    (partsOut pl m k).err = none ∧ (partsOut pl m k).bytes <+: (partsOut pl m n).bytes ∧
    (1 ≤ k → (partOut pl m k).err = none) := by
  induction n with
  | zero =>
    obtain rfl : k = 0 := by omega
    exact ⟨rfl, List.prefix_refl _, fun h => by omega⟩
  | succ n ih =>
    rw [partsOut, seq_err] at h
    rcases Nat.lt_or_ge n k with hlt | hle
    · obtain rfl : k = n + 1 := by omega
      exact ⟨by rw [partsOut, seq_err]; exact h, List.prefix_refl _, fun _ => h.2⟩
    · obtain ⟨a, b, c⟩ := ih h.1 hle
      refine ⟨a, b.trans ?_, c⟩
      rw [partsOut]
      unfold Out.seq
      rw [h.1]
      exact List.prefix_append _ _

theorem partsOut_bytes (pl : Plat) (m : OldMesh F) {n : Nat} (h : (partsOut pl m (n + 1)).err = none) :
    (partsOut pl m (n + 1)).bytes = (partsOut pl m n).bytes ++ (partOut pl m (n + 1)).bytes := by
  rw [partsOut, seq_err] at h
  rw [partsOut]
  unfold Out.seq
  rw [h.1]

end

/-! ## Reading -/

/-- The parts of a file of the package, from 1. -/
def filePart (pl : Plat) (w : Mesh W) : Nat → Out
  | 0 => .nil
  | 1 => exportHead pl w.head
  | 2 => writeByte w.u1
  | 3 => writeLong pl w.geomnum
  | 4 => .each (fun g => writeLong pl g.lodnum) w.geoms
  | 5 => writeLong pl w.vertattribnum
  | 6 => .each (exportVAttr pl) w.vattrs
  | 7 => writeLong pl w.vertformat
  | 8 => writeLong pl w.vertstride
  | 9 => writeLong pl w.vertnum
  | 10 => .each (writeFloat pl) w.vertices
  | 11 => writeLong pl w.indexnum
  | 12 => indexBytes pl w.index
  | 13 => if w.kind.isSkinned then .nil else writeLong pl w.u2
  | 14 => .each (fun g => .each (exportLodNodes pl w.head.version w.kind) g.lods) w.geoms
  | _ => .each (fun g => .each (exportLodMaterials pl w.head.version w.kind) g.lods) w.geoms

theorem elems_bytes (pl : Plat) (x : OneOrMany Int) : Out.each (writeShort pl) x.elems = indexBytes pl x := by
  cases x with
  | many l => rfl
  | one a =>
    simp only [OneOrMany.elems, indexBytes, Out.each]
    exact Out.seq_nil _

theorem part_file {pl : Plat} {m : Mesh F64} (hw : MeshWF m) (hr : InRange pl m) {i : Nat} (h : i ≤ 15) :
    partOut pl m.old i = filePart pl (m.lastNodes.map packF) i := by
  have h1 : oldWriteHead pl m.head = exportHead pl m.head := oldWriteHead_eq (by
    simpa using ⟨hr.head_u1, hr.version, hr.head_u3, hr.head_u4, hr.head_u5⟩)
  have h2 : Out.table (fun g => writeLong pl g.lodnum) (oldGeoms m.kind [] m.geoms) m.geomnum =
      Out.each (fun g => writeLong pl g.lodnum) (m.lastNodes.map packF).geoms := by
    rw [table_eq (by rw [oldGeoms_length, hw.geoms]), oldGeoms_lodnums]
    unfold Mesh.lastNodes Mesh.map
    simp only [each_map]
    rfl
  have h3 : Out.table (oldWriteVAttr pl) (m.vattrs.map VAttr.signed) m.vertattribnum =
      Out.each (exportVAttr pl) m.vattrs := by
    rw [table_eq (by rw [List.length_map, hw.vattrs]), each_map]
    exact each_congr fun a ha => oldWriteVAttr_eq (hr.vattrs a ha)
  have h4 : packShorts pl m.index.elems = indexBytes pl m.index :=
    (packShorts_eq hr.index).trans (elems_bytes pl _)
  have h5 : Out.each (fun g => Out.each (oldWriteLodNodes pl m.head.version m.kind) g.lods)
      (oldGeoms m.kind [] m.geoms) =
      Out.each (fun g => Out.each (exportLodNodes pl m.head.version m.kind) g.lods)
        (m.lastNodes.map packF).geoms := by
    rw [oldWriteGeoms_eq (g := fun l => exportLodNodes pl m.head.version m.kind l.lastNodes)
      fun x hx l hl p => oldWriteLodNodes_eq ((hw.geom x hx).nodes l hl) p]
    unfold Mesh.lastNodes Geom.lastNodes Mesh.map Geom.map
    simp only [each_map]
    refine each_congr fun g _ => each_congr fun l _ => ?_
    exact exportLodNodes_map pl _ _ _
  have h6 : Out.each (fun g => Out.each (oldWriteLodMaterials pl m.head.version m.kind) g.lods)
      (oldGeoms m.kind [] m.geoms) =
      Out.each (fun g => Out.each (exportLodMaterials pl m.head.version m.kind) g.lods)
        (m.lastNodes.map packF).geoms := by
    rw [oldWriteGeoms_eq (g := fun l => exportLodMaterials pl m.head.version m.kind l.lastNodes)
      fun x hx l hl p => rfl]
    unfold Mesh.lastNodes Geom.lastNodes Mesh.map Geom.map
    simp only [each_map]
    refine each_congr fun g _ => each_congr fun l _ => ?_
    exact exportLodMaterials_map pl _ _ _
  have h7 : packFloats pl m.vertices = Out.each (writeFloat pl) (m.vertices.map packF) := by
    rw [packFloats_eq, each_map]
    rfl
  match i, h with
  | 0, _ => rfl
  | 1, _ => exact h1
  | 2, _ => rfl
  | 3, _ => rfl
  | 4, _ => exact h2
  | 5, _ => rfl
  | 6, _ => exact h3
  | 7, _ => rfl
  | 8, _ => rfl
  | 9, _ => rfl
  | 10, _ => exact h7
  | 11, _ => rfl
  | 12, _ => exact h4
  | 13, _ => rfl
  | 14, _ => exact h5
  | 15, _ => exact h6

/-- The first `n` parts. -/
def fileUpTo (pl : Plat) (w : Mesh W) : Nat → Bytes
  | 0 => []
  | n + 1 => fileUpTo pl w n ++ (filePart pl w (n + 1)).bytes

theorem next_part {F α : Type} {p : P (OldPart F)} {step : OldPart F → P α} {f : OldPart F → α → OldPart F}
    {b b' : Bytes} {x : OldPart F} {a : α} (h : ∀ r, p (b ++ r) = .ok (x, r))
    (h' : ∀ r, step x (b' ++ r) = .ok (a, r)) (r : Bytes) :
    (do let y ← p; let z ← step y; pure (f y z) : P (OldPart F)) ((b ++ b') ++ r) = .ok (f x a, r) := by
  rw [List.append_assoc, P.bind_run, h]
  simp only [P.bind_run, h', P.pure_run]

theorem readParts_file {pl : Plat} {w : Mesh W} (wf : MeshWF w)
    (ok : ∀ i, 1 ≤ i → i ≤ 15 → (filePart pl w i).err = none) {n : Nat} (h : n ≤ 15)
    (full : n = 15 → ¬ FirstEmpty (w.map unpackF).lods) (r : Bytes) :
    readParts (F := F64) pl w.kind n (fileUpTo pl w n ++ r) = .ok ((w.map unpackF).old.upTo n, r) := by
  have part : ∀ i, 1 ≤ i → i ≤ 15 → filePart pl w i = ⟨(filePart pl w i).bytes, none⟩ :=
    fun i h1 h2 => Out.ext' rfl (ok i h1 h2)
  have long : ∀ (v : Int) (i : Nat), 1 ≤ i → i ≤ 15 → filePart pl w i = writeLong pl v →
      ∀ r, readLong pl ((filePart pl w i).bytes ++ r) = .ok (v, r) :=
    fun v i h1 h2 e r => (readLong_inv pl).complete r trivial (e ▸ part i h1 h2)
  have r1 : ∀ r, readHeadPart (F := F64) pl (fileUpTo pl w 1 ++ r) = .ok ((w.map unpackF).old.upTo 1, r) := by
    intro r
    show (loadHead pl >>= _) _ = _
    rw [P.bind_run, show fileUpTo pl w 1 = (filePart pl w 1).bytes from List.nil_append _,
      (loadHead_inv pl).complete r trivial (part 1 (by omega) (by omega))]
    rfl
  have r2 : ∀ r, readU1Part (F := F64) pl (fileUpTo pl w 2 ++ r) = .ok ((w.map unpackF).old.upTo 2, r) :=
    next_part r1 fun r => readByte_inv.complete r trivial (part 2 (by omega) (by omega))
  have r3 : ∀ r, readGeomnumPart (F := F64) pl (fileUpTo pl w 3 ++ r) = .ok ((w.map unpackF).old.upTo 3, r) :=
    next_part r2 (long _ 3 (by omega) (by omega) rfl)
  have l4 : (w.map unpackF).old.geoms.map (·.lodnum) = w.geoms.map (·.lodnum) := by
    have : ∀ (k : Kind) (prev : List (Mat F64)) (gs : List (Geom F64)),
        (oldGeoms k prev gs).map (·.lodnum) = gs.map (·.lodnum) := by
      intro k prev gs
      induction gs generalizing prev with
      | nil => rfl
      | cons g gs ih => rw [oldGeoms, List.map_cons, ih]; rfl
    refine (this _ _ _).trans ?_
    show (w.geoms.map (Geom.map unpackF)).map _ = _
    rw [List.map_map]
    rfl
  have s4 : ∀ r, P.rep (readLong pl) w.geomnum.toNat ((filePart pl w 4).bytes ++ r) =
      .ok ((w.map unpackF).old.geoms.map (·.lodnum), r) := by
    intro r
    rw [l4]
    refine ((readLong_inv pl).rep _).complete _ ⟨by simpa using wf.geoms, by simp⟩ ?_
    rw [each_map]
    exact part 4 (by omega) (by omega)
  have r4 : ∀ r, readGeomTablePart (F := F64) pl (fileUpTo pl w 4 ++ r) = .ok ((w.map unpackF).old.upTo 4, r) :=
    next_part r3 s4
  have r5 : ∀ r, readVattrnumPart (F := F64) pl (fileUpTo pl w 5 ++ r) = .ok ((w.map unpackF).old.upTo 5, r) :=
    next_part r4 (long _ 5 (by omega) (by omega) rfl)
  have s6 : ∀ r, P.rep (oldLoadVAttr pl) w.vertattribnum.toNat ((filePart pl w 6).bytes ++ r) =
      .ok (w.vattrs.map VAttr.signed, r) := by
    intro r
    rw [P.rep_map (oldLoadVAttr_eq pl), P.map_run,
      ((loadVAttr_inv pl).rep _).complete r ⟨wf.vattrs, by simp⟩ (part 6 (by omega) (by omega))]
  have r6 : ∀ r, readVattrsPart (F := F64) pl (fileUpTo pl w 6 ++ r) = .ok ((w.map unpackF).old.upTo 6, r) :=
    next_part r5 s6
  have r7 : ∀ r, readVertformatPart (F := F64) pl (fileUpTo pl w 7 ++ r) = .ok ((w.map unpackF).old.upTo 7, r) :=
    next_part r6 (long _ 7 (by omega) (by omega) rfl)
  have r8 : ∀ r, readVertstridePart (F := F64) pl (fileUpTo pl w 8 ++ r) = .ok ((w.map unpackF).old.upTo 8, r) :=
    next_part r7 (long _ 8 (by omega) (by omega) rfl)
  have r9 : ∀ r, readVertnumPart (F := F64) pl (fileUpTo pl w 9 ++ r) = .ok ((w.map unpackF).old.upTo 9, r) :=
    next_part r8 (long _ 9 (by omega) (by omega) rfl)
  have s10 : ∀ r, oldLoadVertices pl w.vertstride w.vertformat w.vertnum ((filePart pl w 10).bytes ++ r) =
      .ok (w.vertices.map unpackF, r) := by
    refine fun r => oldLoadVertices_of ?_
    rw [loadVertices_map, P.map_run,
      (loadVertices_inv pl _ _ _).complete r ⟨wf.vertformat, wf.vertices, wf.not_one⟩
        (part 10 (by omega) (by omega))]
    rfl
  have r10 : ∀ r, readVerticesPart (F := F64) pl (fileUpTo pl w 10 ++ r) = .ok ((w.map unpackF).old.upTo 10, r) :=
    next_part r9 s10
  have r11 : ∀ r, readIndexnumPart (F := F64) pl (fileUpTo pl w 11 ++ r) = .ok ((w.map unpackF).old.upTo 11, r) :=
    next_part r10 (long _ 11 (by omega) (by omega) rfl)
  have s12 : ∀ r, readTuple (readShort1 pl) w.indexnum ((filePart pl w 12).bytes ++ r) =
      .ok (w.index.elems, r) := by
    intro r
    have := (readShort_inv pl _).complete r wf.index (part 12 (by omega) (by omega))
    rw [readShort] at this
    rw [readTuple_eq, P.map_run, this]
  have r12 : ∀ r, readIndexPart (F := F64) pl (fileUpTo pl w 12 ++ r) = .ok ((w.map unpackF).old.upTo 12, r) :=
    next_part r11 s12
  have r13 : ∀ r, readU2Part (F := F64) pl w.kind (fileUpTo pl w 13 ++ r) = .ok ((w.map unpackF).old.upTo 13, r) :=
    next_part r12 fun r => (u2_inv pl _).complete r wf.u2 (part 13 (by omega) (by omega))
  have hf0 : List.Forall₂ (fun (n : Int) (g : Geom W) => g.lodnum = n ∧ g.lods.length = n.toNat ∧
      ∀ l ∈ g.lods, LodNodesWF w.kind w.head.version l ∧ l.matnum = 0 ∧ l.materials = [])
      (w.geoms.map (·.lodnum)) (w.geoms.map Geom.strip) := by
    rw [List.forall₂_map_left_iff, List.forall₂_map_right_iff, List.forall₂_same]
    intro g hgm
    have hw := wf.geom g hgm
    refine ⟨rfl, by simpa [Geom.strip] using hw.lods, ?_⟩
    intro l hl
    simp only [Geom.strip, List.mem_map] at hl
    obtain ⟨l, hl, rfl⟩ := hl
    have r3 := hw.nodes l hl
    exact ⟨⟨r3.1, r3.2, r3.3, r3.4, r3.5, r3.6⟩, rfl, rfl⟩
  have hf1 : List.Forall₂ (fun (g0 g : Geom W) => g.lodnum = g0.lodnum ∧
      List.Forall₂ (fun l0 l => LodMatsWF w.kind w.head.version l ∧
      { l0 with matnum := l.matnum, materials := l.materials } = l) g0.lods g.lods)
      (w.geoms.map Geom.strip) w.geoms := by
    rw [List.forall₂_map_left_iff, List.forall₂_same]
    intro g hgm
    refine ⟨rfl, ?_⟩
    simp only [Geom.strip]
    rw [List.forall₂_map_left_iff, List.forall₂_same]
    intro l hl
    exact ⟨(wf.geom g hgm).mats l hl, rfl⟩
  have bare : (w.map unpackF).old.geoms.map OldGeom.bare =
      ((w.geoms.map Geom.strip).map (Geom.map unpackF)).map (Geom.old0 w.kind) := by
    have e : ∀ g : OldGeom F64, g.bare = g.plain.bare := by
      intro g
      simp only [OldGeom.bare, OldGeom.plain, List.map_map]
      rfl
    rw [show OldGeom.bare (F := F64) = OldGeom.bare ∘ OldGeom.plain from funext e, ← List.map_map,
      show (w.map unpackF).old.geoms = oldGeoms w.kind [] (w.geoms.map (Geom.map unpackF)) from rfl,
      oldGeoms_plain]
    simp only [List.map_map]
    refine List.map_congr_left fun g _ => ?_
    simp only [Function.comp, OldGeom.bare, Geom.old0, Geom.map, Geom.strip, List.map_map]
    congr 1
  have s14 : ∀ r, P.each (oldLoadGeomNodes (F := F64) pl w.head.version w.kind)
      ((w.map unpackF).old.geoms.map (·.lodnum)) ((filePart pl w 14).bytes ++ r) =
      .ok ((w.map unpackF).old.geoms.map OldGeom.bare, r) := by
    intro r
    rw [l4, bare, oldLoadGeomNodes_each, P.map_run]
    have := P.each_map (g := id) (p := loadGeomNodes (F := F64) pl w.head.version w.kind)
      (loadGeomNodes_map (F := F64) pl w.head.version w.kind) (w.geoms.map (·.lodnum))
    rw [List.map_id] at this
    rw [this, P.map_run, (Inverts.each (loadGeomNodes_inv pl _ _) _).complete r hf0]
    · rfl
    · rw [each_map]
      refine Eq.trans ?_ (part 14 (by omega) (by omega))
      refine each_congr fun g _ => ?_
      simp only [Geom.strip, each_map, exportLodNodes_strip]
  have r14 : ∀ r, readNodesPart (F := F64) pl w.kind (fileUpTo pl w 14 ++ r) =
      .ok ((w.map unpackF).old.upTo 14, r) := next_part r13 s14
  match n, h with
  | 0, _ => rfl
  | 1, _ => exact r1 r
  | 2, _ => exact r2 r
  | 3, _ => exact r3 r
  | 4, _ => exact r4 r
  | 5, _ => exact r5 r
  | 6, _ => exact r6 r
  | 7, _ => exact r7 r
  | 8, _ => exact r8 r
  | 9, _ => exact r9 r
  | 10, _ => exact r10 r
  | 11, _ => exact r11 r
  | 12, _ => exact r12 r
  | 13, _ => exact r13 r
  | 14, _ => exact r14 r
  | 15, _ =>
    have m15 : P.each (loadGeomMaterials (F := F64) pl w.head.version w.kind)
        ((w.geoms.map Geom.strip).map (Geom.map unpackF)) ((filePart pl w 15).bytes ++ r) =
        .ok (w.geoms.map (Geom.map unpackF), r) := by
      have e := P.each_map (f := Geom.map unpackF) (g := Geom.map unpackF)
        (loadGeomMaterials_map (F := F64) pl w.head.version w.kind) (w.geoms.map Geom.strip)
      rw [e, P.map_run, (Inverts.each (loadGeomMaterials_inv pl _ _) _).complete r hf1 (part 15 (by omega) (by omega))]
    have s15 := oldLoadGeoms_of (prev := []) m15
    rw [← bare, if_neg fun h => full rfl h.2] at s15
    show (readNodesPart (F := F64) pl w.kind >>= _) ((fileUpTo pl w 14 ++ (filePart pl w 15).bytes) ++ r) = _
    rw [List.append_assoc, P.bind_run, r14]
    simp only [P.bind_run]
    rw [show ((w.map unpackF).old.upTo 14).geoms = (w.map unpackF).old.geoms.map OldGeom.bare from rfl,
      show ((w.map unpackF).old.upTo 14).version = w.head.version from rfl]
    rw [List.getLast?_nil, Option.map_none] at s15
    rw [s15]
    rfl

/-- The flags of the reading object matter in two cases only. -/
theorem readParts_kind {F : Type} [FCodec F] (pl : Plat) {k k' : Kind} (h1 : k'.isSkinned = k.isSkinned)
    (h2 : k'.isBundled = k.isBundled) (n : Nat) :
    readParts (F := F) pl k' n = readParts pl k n := by
  obtain ⟨a, b, c, d⟩ := k
  obtain ⟨a', b', c', d'⟩ := k'
  obtain rfl : a' = a := h1
  obtain rfl : b' = b := h2
  rfl

theorem file_parts {pl : Plat} {m : Mesh F64} (hw : MeshWF m) (hr : InRange pl m) {n : Nat} (h : n ≤ 15) :
    partsOut pl m.old n = ⟨fileUpTo pl (m.lastNodes.map packF) n, none⟩ := by
  have ok : (partsOut pl m.old 15).err = none := by
    rw [partsOut_save]
    obtain ⟨out, h1, -⟩ := shows_save (o := m.old) rfl hw hr
    rw [h1]
  induction n with
  | zero => rfl
  | succ n ih =>
    refine Out.ext' ?_ (partsOut_ok pl m.old ok h).1
    rw [partsOut_bytes pl m.old (partsOut_ok pl m.old ok h).1, ih (by omega), part_file hw hr h]
    rfl

theorem lastNodes_old {F : Type} (m : Mesh F) : m.lastNodes.old = m.old := by
  unfold Mesh.old
  rw [show m.lastNodes.geoms = m.geoms.map Geom.lastNodes from rfl, oldGeoms_lastNodes]
  rfl

theorem firstEmpty_map {F G : Type} (f : F → G) (m : Mesh F) :
    FirstEmpty (m.map f).lods ↔ FirstEmpty m.lods := by
  have : (m.map f).lods = m.lods.map (Lod.map f) := by
    simp only [Mesh.lods, Mesh.map, List.flatMap_map, List.map_flatMap]
    rfl
  rw [this]
  unfold FirstEmpty
  rcases m.lods with _ | ⟨l, ls⟩
  · simp
  · simp only [List.map_cons, List.head?_cons, Option.some.injEq, exists_eq_left']
    simp [Lod.map]

theorem partsOut_shows {F : Type} [FCodec F] {pl : Plat} {o : OldMesh F} {m : Mesh F} (h : Shows o m) (n : Nat) :
    partsOut pl o n = partsOut pl m.old n := by
  have e : ∀ (x : OldMesh F) i, partOut pl x.plain i = partOut pl x i := by
    intro x i
    unfold partOut OldMesh.plain
    simp only [table_map, each_map, OldGeom.plain]
    rfl
  induction n with
  | zero => rfl
  | succ n ih => rw [partsOut, partsOut, ih, ← e, h, e]

theorem parts_read_back {pl : Plat} {o : OldMesh F64} {m : Mesh F64} (hs : Shows o m) (hw : MeshWF m)
    (hr : InRange pl m) {n : Nat} (h : n ≤ 15) (full : n = 15 → ¬ FirstEmpty m.lods) (r : Bytes) :
    (partsOut pl o n).err = none ∧
    readParts pl o.kind n ((partsOut pl o n).bytes ++ r) = .ok ((m.map rnd32).old.upTo n, r) := by
  have hk : o.kind = m.kind := congrArg OldMesh.kind hs
  have hw' : MeshWF (m.lastNodes.map packF) := hw.lastNodes.map _
  rw [partsOut_shows hs, file_parts hw hr h, hk]
  refine ⟨rfl, ?_⟩
  have ok : ∀ i, 1 ≤ i → i ≤ 15 → (filePart pl (m.lastNodes.map packF) i).err = none := by
    intro i h1 h2
    rw [← part_file hw hr h2]
    have := file_parts hw hr (le_refl 15)
    exact (partsOut_ok pl m.old (by rw [this]) h2).2.2 h1
  have e : (m.lastNodes.map packF).map unpackF = (m.map rnd32).lastNodes := by
    rw [Mesh.map_map, Mesh.lastNodes_map]
    rfl
  have key := readParts_file hw' ok h (fun hn => by
    rw [e, firstEmpty_lastNodes, firstEmpty_map]; exact full hn) r
  rw [e, lastNodes_old] at key
  exact key

end Bf2
