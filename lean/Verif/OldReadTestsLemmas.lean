import Verif.OldReadTestsSpec
import Verif.OldStagesLemmas
import Verif.FloatLemmas
import Verif.OldFailedLemmas
import Verif.OldTestsLemmas
import Verif.RepoTestsLemmas

/-! # Lemmas about the tests that only read -/

namespace Bf2

section
variable {F : Type} [FCodec F]

theorem rep_bare {pl : Plat} {v : Int} {k : Kind} : ∀ {n : Nat} {s r : Bytes} {ls : List (OldLod F)},
    P.rep (oldLoadLodNodes pl v k) n s = .ok (ls, r) → ls.map OldLod.bare = ls
  | 0, s, r, ls, h => by
    cases h
    rfl
  | n + 1, s, r, ls, h => by
    rw [P.rep, P.bind_run] at h
    rcases h1 : oldLoadLodNodes (F := F) pl v k s with e | ⟨l, r1⟩
    · rw [h1] at h
      cases h
    · rw [h1] at h
      simp only [P.bind_run] at h
      rcases h2 : P.rep (oldLoadLodNodes (F := F) pl v k) n r1 with e | ⟨ls', r2⟩
      · rw [h2] at h
        cases h
      · have ih := rep_bare h2
        rw [h2] at h
        simp only [P.pure_run, Except.ok.injEq, Prod.mk.injEq] at h
        obtain ⟨rfl, -⟩ := h
        rw [List.map_cons, ih]
        congr 1
        unfold oldLoadLodNodes at h1
        obtain ⟨_, _, -, h1⟩ := P.bind_ok.1 h1
        obtain ⟨_, _, -, h1⟩ := P.bind_ok.1 h1
        obtain ⟨_, _, -, h1⟩ := P.bind_ok.1 h1
        split at h1
        · obtain ⟨_, _, -, h1⟩ := P.bind_ok.1 h1
          obtain ⟨_, _, -, h1⟩ := P.bind_ok.1 h1
          cases h1
          rfl
        · obtain ⟨_, _, -, h1⟩ := P.bind_ok.1 h1
          obtain ⟨_, _, -, h1⟩ := P.bind_ok.1 h1
          cases h1
          rfl

theorem each_bare {pl : Plat} {v : Int} {k : Kind} : ∀ {ns : List Int} {s r : Bytes} {gs : List (OldGeom F)},
    P.each (oldLoadGeomNodes pl v k) ns s = .ok (gs, r) → gs.map OldGeom.bare = gs
  | [], s, r, gs, h => by
    cases h
    rfl
  | n :: ns, s, r, gs, h => by
    rw [P.each, P.bind_run] at h
    unfold oldLoadGeomNodes at h
    rw [P.bind_run] at h
    rcases h1 : P.rep (oldLoadLodNodes (F := F) pl v k) n.toNat s with e | ⟨ls, r1⟩
    · rw [h1] at h
      cases h
    · rw [h1] at h
      simp only [P.pure_run, P.bind_run] at h
      rcases h2 : P.each (oldLoadGeomNodes (F := F) pl v k) ns r1 with e | ⟨hs, r2⟩
      · unfold oldLoadGeomNodes at h2
        rw [h2] at h
        cases h
      · have ih := each_bare h2
        unfold oldLoadGeomNodes at h2
        rw [h2] at h
        simp only [Except.ok.injEq, Prod.mk.injEq] at h
        obtain ⟨rfl, -⟩ := h
        rw [List.map_cons, ih]
        unfold OldGeom.bare
        simp only [rep_bare h1]

theorem scanLods_bare {pl : Plat} {v : Int} {k : Kind} : ∀ {ls : List (OldLod F)} {l : Option Int} {s r : Bytes}
    {x : Option Int × List (OldLod F)},
    P.scan (oldLoadLodMaterials pl v k) l ls s = .ok (x, r) → x.2.map OldLod.bare = ls.map OldLod.bare
  | [], l, s, r, x, h => by
    cases h
    rfl
  | g :: gs, l, s, r, x, h => by
    rw [P.scan, P.bind_run] at h
    rcases h1 : oldLoadLodMaterials (F := F) pl v k l g s with e | ⟨⟨l1, g1⟩, r1⟩
    · rw [h1] at h
      cases h
    · rw [h1] at h
      simp only [P.bind_run] at h
      rcases h2 : P.scan (oldLoadLodMaterials (F := F) pl v k) l1 gs r1 with e | ⟨⟨l2, g2⟩, r2⟩
      · rw [h2] at h
        cases h
      · have ih := scanLods_bare h2
        rw [h2] at h
        cases h
        have : g1.bare = g.bare := by
          unfold oldLoadLodMaterials at h1
          simp only [P.bind_ok] at h1
          obtain ⟨n, s1, -, ms, s2, -, h1⟩ := h1
          rcases hg : ms.getLast? with _ | m <;> rw [hg] at h1 <;> rcases l with _ | i <;> cases h1 <;> rfl
        simp only [List.map_cons, this] at ih ⊢
        rw [ih]

theorem scan_bare {pl : Plat} {v : Int} {k : Kind} : ∀ {gs : List (OldGeom F)} {l : Option Int} {s r : Bytes}
    {x : Option Int × List (OldGeom F)},
    P.scan (oldLoadGeomMaterials pl v k) l gs s = .ok (x, r) → x.2.map OldGeom.bare = gs.map OldGeom.bare
  | [], l, s, r, x, h => by
    cases h
    rfl
  | g :: gs, l, s, r, x, h => by
    rw [P.scan, P.bind_run] at h
    rcases h1 : oldLoadGeomMaterials (F := F) pl v k l g s with e | ⟨⟨l1, g1⟩, r1⟩
    · rw [h1] at h
      cases h
    · rw [h1] at h
      simp only [P.bind_run] at h
      rcases h2 : P.scan (oldLoadGeomMaterials (F := F) pl v k) l1 gs r1 with e | ⟨⟨l2, g2⟩, r2⟩
      · rw [h2] at h
        cases h
      · have ih := scan_bare h2
        rw [h2] at h
        cases h
        have : g1.bare = g.bare := by
          unfold oldLoadGeomMaterials at h1
          rw [P.bind_run] at h1
          rcases h3 : P.scan (oldLoadLodMaterials (F := F) pl v k) l g.lods s with e | ⟨⟨l3, g3⟩, r3⟩
          · rw [h3] at h1
            cases h1
          · rw [h3] at h1
            cases h1
            unfold OldGeom.bare
            simp only [scanLods_bare h3]
        simp only [List.map_cons, this] at ih ⊢
        rw [ih]

/-- A lod with one material. -/
def OneMat (l : OldLod F) : Prop := l.matnum = 1 → ∃ m, l.materials = [m] ∧ l.polyInum = m.inum

theorem scanLods_one {pl : Plat} {v : Int} {k : Kind} : ∀ {ls : List (OldLod F)} {l : Option Int} {s r : Bytes}
    {x : Option Int × List (OldLod F)},
    P.scan (oldLoadLodMaterials pl v k) l ls s = .ok (x, r) → ∀ y ∈ x.2, OneMat y
  | [], l, s, r, x, h => by
    cases h
    simp
  | g :: gs, l, s, r, x, h => by
    rw [P.scan] at h
    simp only [P.bind_ok] at h
    obtain ⟨⟨l1, g1⟩, r1, h1, ⟨l2, g2⟩, r2, h2, h⟩ := h
    have ih := scanLods_one h2
    cases h
    intro y hy
    rcases List.mem_cons.1 hy with rfl | hy
    · unfold oldLoadLodMaterials at h1
      simp only [P.bind_ok] at h1
      obtain ⟨n, s1, -, ms, s2, hm, h1⟩ := h1
      have hc := rep_count hm
      intro hn
      rcases ms with _ | ⟨m, _ | ⟨m2, ms⟩⟩
      · rcases l with _ | i
        · cases h1
        · cases h1
          rw [show n = 1 from hn] at hc
          cases hc
      · cases h1
        exact ⟨m, rfl, rfl⟩
      · have e : y.matnum = n := by
          rcases hg : (m :: m2 :: ms).getLast? with _ | m <;> rw [hg] at h1 <;> rcases l with _ | i <;> cases h1 <;>
            rfl
        rw [e] at hn
        rw [hn] at hc
        simp at hc
    · exact ih y hy

theorem scan_one {pl : Plat} {v : Int} {k : Kind} : ∀ {gs : List (OldGeom F)} {l : Option Int} {s r : Bytes}
    {x : Option Int × List (OldGeom F)},
    P.scan (oldLoadGeomMaterials pl v k) l gs s = .ok (x, r) → ∀ g ∈ x.2, ∀ y ∈ g.lods, OneMat y
  | [], l, s, r, x, h => by
    cases h
    simp
  | g :: gs, l, s, r, x, h => by
    rw [P.scan] at h
    simp only [P.bind_ok] at h
    obtain ⟨⟨l1, g1⟩, r1, h1, ⟨l2, g2⟩, r2, h2, h⟩ := h
    have ih := scan_one h2
    cases h
    intro y hy
    rcases List.mem_cons.1 hy with rfl | hy
    · unfold oldLoadGeomMaterials at h1
      simp only [P.bind_ok] at h1
      obtain ⟨⟨l3, g3⟩, r3, h3, h1⟩ := h1
      cases h1
      exact scanLods_one h3
    · exact ih y hy

theorem readLong_lt {pl : Plat} {s r : Bytes} {v : Int} (h : readLong pl s = .ok (v, r)) : |v| < 2 ^ 64 := by
  simp only [readLong, P.bind_ok, P.pure_ok, readBytes_ok] at h
  obtain ⟨bs, s', ⟨hl, rfl⟩, rfl, rfl⟩ := h
  have hk : pl.longSize = 1 ∨ pl.longSize = 2 ∨ pl.longSize = 4 ∨ pl.longSize = 8 :=
    .inr (.inr pl.longSize_cases)
  have h1 := (toSigned_fits hk (pl.dec_lt hl)).1
  generalize toSigned pl.longSize (pl.dec bs) = v at h1 ⊢
  rw [abs_lt]
  rcases pl.longSize_cases with e | e <;> rw [e] at h1 <;>
    simp only [fitsSigned, Bool.and_eq_true, decide_eq_true_eq] at h1 <;> norm_num at h1 ⊢ <;> omega

/-- What the readers read of a file that loads. -/
theorem readParts_loaded {pl : Plat} {k : Kind} {s r : Bytes} {o : OldMesh F}
    (h : oldLoadBody pl k s = .ok (o, r)) {n : Nat} (one : 1 ≤ n) (last : n ≤ 15) :
    (o.vertformat ≠ 0 ∧ |o.vertformat| < 2 ^ 64) ∧ (∀ g ∈ o.geoms, ∀ l ∈ g.lods, OneMat l) ∧
      ∃ r', readParts pl k n s = .ok (o.upTo n, r') := by
  unfold oldLoadBody at h
  rcases h1 : loadHead pl s with e | ⟨head, s1⟩
  · rw [P.bind_run, h1] at h
    cases h
  rw [P.bind_run, h1] at h
  simp only at h
  have p1 : readParts (F := F) pl k 1 s =
      .ok (⟨some head, 0, 0, [], 0, [], 4, 0, 0, [], 0, [], 0, []⟩, s1) := by
    change (loadHead pl >>= fun head => pure { (OldPart.fresh : OldPart F) with head := some head }) s = _
    rw [P.bind_run, h1]
    rfl
  rcases h2 : readByte s1 with e | ⟨u1, s2⟩
  · rw [P.bind_run, h2] at h
    cases h
  rw [P.bind_run, h2] at h
  simp only at h
  have p2 : readParts (F := F) pl k 2 s =
      .ok (⟨some head, u1, 0, [], 0, [], 4, 0, 0, [], 0, [], 0, []⟩, s2) := part_ok p1 h2
  rcases h3 : readLong pl s2 with e | ⟨geomnum, s3⟩
  · rw [P.bind_run, h3] at h
    cases h
  rw [P.bind_run, h3] at h
  simp only at h
  have p3 : readParts (F := F) pl k 3 s =
      .ok (⟨some head, u1, geomnum, [], 0, [], 4, 0, 0, [], 0, [], 0, []⟩, s3) := part_ok p2 h3
  rcases h4 : P.rep (readLong pl) geomnum.toNat s3 with e | ⟨lodnums, s4⟩
  · rw [P.bind_run, h4] at h
    cases h
  rw [P.bind_run, h4] at h
  simp only at h
  have p4 : readParts (F := F) pl k 4 s =
      .ok (⟨some head, u1, geomnum, lodnums, 0, [], 4, 0, 0, [], 0, [], 0, []⟩, s4) := part_ok p3 h4
  rcases h5 : readLong pl s4 with e | ⟨vertattribnum, s5⟩
  · rw [P.bind_run, h5] at h
    cases h
  rw [P.bind_run, h5] at h
  simp only at h
  have p5 : readParts (F := F) pl k 5 s =
      .ok (⟨some head, u1, geomnum, lodnums, vertattribnum, [], 4, 0, 0, [], 0, [], 0, []⟩, s5) := part_ok p4 h5
  rcases h6 : P.rep (oldLoadVAttr pl) vertattribnum.toNat s5 with e | ⟨vattrs, s6⟩
  · rw [P.bind_run, h6] at h
    cases h
  rw [P.bind_run, h6] at h
  simp only at h
  have p6 : readParts (F := F) pl k 6 s =
      .ok (⟨some head, u1, geomnum, lodnums, vertattribnum, vattrs, 4, 0, 0, [], 0, [], 0, []⟩, s6) := part_ok p5 h6
  rcases h7 : readLong pl s6 with e | ⟨vertformat, s7⟩
  · rw [P.bind_run, h7] at h
    cases h
  rw [P.bind_run, h7] at h
  simp only at h
  have p7 : readParts (F := F) pl k 7 s =
      .ok (⟨some head, u1, geomnum, lodnums, vertattribnum, vattrs, vertformat, 0, 0, [], 0, [], 0, []⟩, s7) := part_ok p6 h7
  rcases h8 : readLong pl s7 with e | ⟨vertstride, s8⟩
  · rw [P.bind_run, h8] at h
    cases h
  rw [P.bind_run, h8] at h
  simp only at h
  have p8 : readParts (F := F) pl k 8 s =
      .ok (⟨some head, u1, geomnum, lodnums, vertattribnum, vattrs, vertformat, vertstride, 0, [], 0, [], 0, []⟩, s8) := part_ok p7 h8
  rcases h9 : readLong pl s8 with e | ⟨vertnum, s9⟩
  · rw [P.bind_run, h9] at h
    cases h
  rw [P.bind_run, h9] at h
  simp only at h
  have p9 : readParts (F := F) pl k 9 s =
      .ok (⟨some head, u1, geomnum, lodnums, vertattribnum, vattrs, vertformat, vertstride, vertnum, [], 0, [], 0, []⟩, s9) := part_ok p8 h9
  rcases h10 : oldLoadVertices (F := F) pl vertstride vertformat vertnum s9 with e | ⟨vertices, s10⟩
  · rw [P.bind_run, h10] at h
    cases h
  rw [P.bind_run, h10] at h
  simp only at h
  have p10 : readParts (F := F) pl k 10 s =
      .ok (⟨some head, u1, geomnum, lodnums, vertattribnum, vattrs, vertformat, vertstride, vertnum, vertices, 0, [], 0, []⟩, s10) := part_ok p9 h10
  rcases h11 : readLong pl s10 with e | ⟨indexnum, s11⟩
  · rw [P.bind_run, h11] at h
    cases h
  rw [P.bind_run, h11] at h
  simp only at h
  have p11 : readParts (F := F) pl k 11 s =
      .ok (⟨some head, u1, geomnum, lodnums, vertattribnum, vattrs, vertformat, vertstride, vertnum, vertices, indexnum, [], 0, []⟩, s11) := part_ok p10 h11
  rcases h12 : readTuple (readShort1 pl) indexnum s11 with e | ⟨index, s12⟩
  · rw [P.bind_run, h12] at h
    cases h
  rw [P.bind_run, h12] at h
  simp only at h
  have p12 : readParts (F := F) pl k 12 s =
      .ok (⟨some head, u1, geomnum, lodnums, vertattribnum, vattrs, vertformat, vertstride, vertnum, vertices, indexnum, index, 0, []⟩, s12) := part_ok p11 h12
  rcases h13 : loadU2 pl k s12 with e | ⟨u2, s13⟩
  · rw [P.bind_run, h13] at h
    cases h
  rw [P.bind_run, h13] at h
  simp only at h
  have p13 : readParts (F := F) pl k 13 s =
      .ok (⟨some head, u1, geomnum, lodnums, vertattribnum, vattrs, vertformat, vertstride, vertnum, vertices, indexnum, index, u2, []⟩, s13) := part_ok p12 h13
  rcases h14 : P.each (oldLoadGeomNodes (F := F) pl head.version k) lodnums s13 with e | ⟨geoms0, s14⟩
  · rw [P.bind_run, h14] at h
    cases h
  rw [P.bind_run, h14] at h
  simp only at h
  have p14 : readParts (F := F) pl k 14 s =
      .ok (⟨some head, u1, geomnum, lodnums, vertattribnum, vattrs, vertformat, vertstride, vertnum, vertices, indexnum, index, u2, geoms0⟩, s14) := part_ok p13 h14
  rcases h15 : P.scan (oldLoadGeomMaterials (F := F) pl head.version k) none geoms0 s14 with e | ⟨⟨last, geoms⟩, s15⟩
  · rw [P.bind_run, h15] at h
    cases h
  rw [P.bind_run, h15] at h
  simp only at h
  have p15 : readParts (F := F) pl k 15 s =
      .ok (⟨some head, u1, geomnum, lodnums, vertattribnum, vattrs, vertformat, vertstride, vertnum, vertices, indexnum, index, u2, geoms⟩, s15) := by
    have : readParts (F := F) pl k 15 = (readParts pl k 14 >>= fun p =>
        P.scan (oldLoadGeomMaterials pl p.version k) none p.geoms >>= fun x => pure { p with geoms := x.2 }) := rfl
    rw [this]
    exact part_ok (step := fun p => P.scan (oldLoadGeomMaterials pl p.version k) none p.geoms)
      (f := fun p (x : Option Int × List (OldGeom F)) => { p with geoms := x.2 }) p14 h15
  have e : lodnums = geoms.map (·.lodnum) := (each_lodnums h14).symm.trans (scan_lodnums h15).symm
  have e2 : geoms0 = geoms.map OldGeom.bare := (each_bare h14).symm.trans (scan_bare h15).symm
  have hb := readLong_lt h7
  have hz : vertformat ≠ 0 := by
    rintro rfl
    unfold oldLoadVertices dataNum at h10
    rw [if_pos rfl] at h10
    cases h10
  have ho := scan_one h15
  cases h
  refine ⟨⟨hz, hb⟩, ho, ?_⟩
  rw [e] at p4 p5 p6 p7 p8 p9 p10 p11 p12 p13 p14 p15
  rw [e2] at p14
  rcases (by omega : n = 1 ∨ n = 2 ∨ n = 3 ∨ n = 4 ∨ n = 5 ∨ n = 6 ∨ n = 7 ∨ n = 8 ∨ n = 9 ∨ n = 10 ∨ n = 11 ∨
    n = 12 ∨ n = 13 ∨ n = 14 ∨ n = 15) with rfl | rfl | rfl | rfl | rfl | rfl | rfl | rfl | rfl | rfl | rfl |
    rfl | rfl | rfl | rfl
  · exact ⟨_, p1⟩
  · exact ⟨_, p2⟩
  · exact ⟨_, p3⟩
  · exact ⟨_, p4⟩
  · exact ⟨_, p5⟩
  · exact ⟨_, p6⟩
  · exact ⟨_, p7⟩
  · exact ⟨_, p8⟩
  · exact ⟨_, p9⟩
  · exact ⟨_, p10⟩
  · exact ⟨_, p11⟩
  · exact ⟨_, p12⟩
  · exact ⟨_, p13⟩
  · exact ⟨_, p14⟩
  · exact ⟨_, p15⟩

end

/-- A quotient of integers that are not too large is rounded to an integer only if it is one. -/
theorem rndMag_quotient {a b : ℕ} {n : ℤ} (hb : 0 < b) (ha : a < 2 ^ 53) (hb2 : b < 2 ^ 64)
    (h : rndMag 52 (-1074) ((a : ℚ) / b) = n) : (a : ℚ) / b = n := by
  have hbq : (0 : ℚ) < b := by exact_mod_cast hb
  by_contra hne
  have hr : (0 : ℚ) < (a : ℚ) / b := by
    rcases Nat.eq_zero_or_pos a with rfl | ha0
    · exfalso
      apply hne
      rw [← h]
      have h0 : rne (0 : ℚ) = 0 := by simpa using rne_int 0
      simp [rndMag, h0]
    · positivity
  -- the error is less than the distance to any integer
  have far : (1 : ℚ) / b ≤ |(a : ℚ) / b - n| := by
    have h1 : (a : ℚ) / b - n = ((a - n * b : ℤ) : ℚ) / b := by
      push_cast
      field_simp
    rw [h1, abs_div, abs_of_pos hbq]
    have h2 : (a - n * b : ℤ) ≠ 0 := by
      intro h0
      rw [h0] at h1
      apply hne
      have : (a : ℚ) / b - n = 0 := by rw [h1]; simp
      linarith
    have h3 : (1 : ℚ) ≤ |((a - n * b : ℤ) : ℚ)| := by exact_mod_cast Int.one_le_abs h2
    gcongr
  have near : |(a : ℚ) / b - n| ≤ 2 ^ ulpExp 52 (-1074) ((a : ℚ) / b) / 2 := by
    rw [← h]
    unfold rndMag
    generalize ulpExp 52 (-1074) ((a : ℚ) / b) = e
    have hp := two_zpow_pos e
    have := rne_near ((a : ℚ) / b / 2 ^ e)
    have h4 : (a : ℚ) / b - rne ((a : ℚ) / b / 2 ^ e) * 2 ^ e =
        ((a : ℚ) / b / 2 ^ e - rne ((a : ℚ) / b / 2 ^ e)) * 2 ^ e := by
      rw [sub_mul, div_mul_cancel₀ _ hp.ne']
    rw [h4, abs_mul, abs_of_pos hp]
    nlinarith
  have hu : (2 : ℚ) ^ ulpExp 52 (-1074) ((a : ℚ) / b) < 2 / b := by
    unfold ulpExp
    rw [if_neg hr.ne']
    rcases le_total (Int.log 2 ((a : ℚ) / b) - (52 : ℕ)) (-1074) with hl | hl
    · rw [max_eq_left hl]
      have h5 : (b : ℚ) < 2 ^ 64 := by exact_mod_cast hb2
      rw [lt_div_iff₀ hbq]
      have h6 : (2 : ℚ) ^ (-1074 : ℤ) ≤ 2 ^ (-64 : ℤ) := zpow_le_zpow_right₀ (by norm_num) (by norm_num)
      calc (2 : ℚ) ^ (-1074 : ℤ) * b ≤ 2 ^ (-64 : ℤ) * b := by gcongr
        _ < 2 ^ (-64 : ℤ) * 2 ^ 64 := by gcongr
        _ < 2 := by norm_num
    · rw [max_eq_right hl]
      have h8 := (log_spec hr).1
      rw [zpow_sub₀ (by norm_num : (2 : ℚ) ≠ 0), div_lt_div_iff₀ (by positivity) hbq]
      have h9 : (2 : ℚ) ^ Int.log 2 ((a : ℚ) / b) * b ≤ a := by
        rw [le_div_iff₀ hbq] at h8
        exact h8
      have h10 : (a : ℚ) < 2 ^ 53 := by exact_mod_cast ha
      have h11 : (2 : ℚ) * 2 ^ ((52 : ℕ) : ℤ) = 2 ^ 53 := by norm_num
      rw [h11]
      exact lt_of_le_of_lt h9 h10
  have : (1 : ℚ) / b < 1 / b := by
    calc (1 : ℚ) / b ≤ _ := far
      _ ≤ _ := near
      _ < 2 / b / 2 := by linarith
      _ = 1 / b := by ring
  exact lt_irrefl _ this

theorem rndVal_quotient {a b n : ℤ} (hb : b ≠ 0) (ha : |a| < 2 ^ 53) (hb2 : |b| < 2 ^ 64) :
    rndVal 52 (-1074) ((a : ℚ) / b) = n ↔ a = n * b := by
  have hbq : (b : ℚ) ≠ 0 := by exact_mod_cast hb
  constructor
  · intro h
    have key : (a : ℚ) / b = n := by
      have habs : |(a : ℚ) / b| = (a.natAbs : ℚ) / b.natAbs := by
        rw [abs_div, Nat.cast_natAbs, Nat.cast_natAbs]
        push_cast
        rfl
      have h1 : 0 < b.natAbs := Int.natAbs_pos.2 hb
      have h2 : a.natAbs < 2 ^ 53 := by rw [Int.abs_eq_natAbs] at ha; omega
      have h3 : b.natAbs < 2 ^ 64 := by rw [Int.abs_eq_natAbs] at hb2; omega
      unfold rndVal at h
      split at h
      · next hn =>
        rw [← abs_of_neg hn, habs] at h
        have := rndMag_quotient (n := -n) h1 h2 h3 (by push_cast; linarith)
        rw [← habs, abs_of_neg hn] at this
        push_cast at this
        linarith
      · next hn =>
        rw [← abs_of_nonneg (not_lt.1 hn), habs] at h
        have := rndMag_quotient h1 h2 h3 h
        rwa [← habs, abs_of_nonneg (not_lt.1 hn)] at this
    rw [div_eq_iff hbq] at key
    exact_mod_cast key
  · rintro rfl
    have : ((n * b : ℤ) : ℚ) / b = n := by
      push_cast
      field_simp
    rw [this]
    refine rndVal_int ?_
    rw [abs_mul] at ha
    have := Int.one_le_abs hb
    nlinarith [abs_nonneg n]

theorem thenAssert_error {a : Bool} {x : Except Err Bool} {e : Err} :
    thenAssert a x = .error e ↔ a = true ∧ x = .error e := by
  unfold thenAssert
  cases a <;> simp

theorem numEq_const {x c : F64} {q : ℚ} (hf : c.isFin = true) (hv : c.value = q) :
    NumEq x c ↔ x.isFin = true ∧ x.value = q := by
  have hi : c.isInf = false := by
    unfold F64.isInf
    unfold F64.isFin at hf
    simp only [decide_eq_true_eq, decide_eq_false_iff_not] at hf ⊢
    omega
  unfold NumEq
  rw [hf, hi, hv]
  simp

theorem eqVec3_boxMin (v : Vec3 F64) : eqVec3 v boxMin = true ↔ v.Is (-1 / 2) 0 (-1 / 2) := by
  unfold eqVec3 boxMin Vec3.Is
  simp only [Bool.and_eq_true, feq_iff]
  rw [numEq_const (q := -1 / 2) (by decide +kernel) (by decide +kernel), numEq_const (q := 0) (by decide +kernel)
    (by decide +kernel), numEq_const (q := -1 / 2) (by decide +kernel) (by decide +kernel), and_assoc]

theorem eqVec3_boxMax (v : Vec3 F64) : eqVec3 v boxMax = true ↔ v.Is (1 / 2) 1 (1 / 2) := by
  unfold eqVec3 boxMax Vec3.Is
  simp only [Bool.and_eq_true, feq_iff]
  rw [numEq_const (q := 1 / 2) (by decide +kernel) (by decide +kernel), numEq_const (q := 1) (by decide +kernel)
    (by decide +kernel), numEq_const (q := 1 / 2) (by decide +kernel) (by decide +kernel), and_assoc]

theorem eqBound_iff {a : Option (Vec3 F64)} {b : Vec3 F64} :
    eqBound a b = true ↔ ∃ v, a = some v ∧ eqVec3 v b = true := by
  cases a <;> simp [eqBound]

theorem checkMap_true {maps : List Bytes} {i : Nat} {name : Bytes} {rest : Except Err Bool} :
    checkMap maps i name rest = .ok true ↔ maps[i]? = some name ∧ rest = .ok true := by
  unfold checkMap
  rcases maps[i]? with _ | b
  · simp
  · simp [thenAssert_true]

theorem oldDeclLen_iff {t : Int} {n : Nat} : oldDeclLen t = .ok n ↔ TypeLen t n := by
  unfold oldDeclLen
  constructor
  · intro h
    repeat' split at h
    all_goals (first | (subst_vars; cases h; constructor) | cases h)
  · rintro (_ | _ | _ | _ | _ | _) <;> rfl

theorem sumLens_ok : ∀ {as : List VAttr} {n : Int}, sumLens as = .ok n ↔
    ∃ ns, List.Forall₂ (fun a n => TypeLen a.vartype n) as ns ∧ n = 4 * (ns.sum : Nat)
  | [], n => by
    constructor
    · intro h
      cases h
      exact ⟨[], .nil, rfl⟩
    · rintro ⟨ns, h, rfl⟩
      cases h
      rfl
  | a :: as, n => by
    unfold sumLens
    constructor
    · intro h
      split at h
      · cases h
      next k hk =>
      split at h
      · cases h
      next m hm =>
      obtain ⟨ns, h1, rfl⟩ := sumLens_ok.1 hm
      cases h
      refine ⟨k :: ns, .cons (oldDeclLen_iff.1 hk) h1, ?_⟩
      rw [List.sum_cons]
      push_cast
      ring
    · rintro ⟨ns, h, rfl⟩
      cases h with
      | cons h1 h2 =>
        rw [oldDeclLen_iff.2 h1, sumLens_ok.2 ⟨_, h2, rfl⟩]
        simp only [List.sum_cons]
        push_cast
        congr 1
        ring

theorem sumLens_error : ∀ {as : List VAttr} {e : Err}, sumLens as = .error e →
    (e = .keyError ∨ e = .valueError) ∧ ∃ a ∈ as, ∀ n, ¬ TypeLen a.vartype n
  | [], e, h => by cases h
  | a :: as, e, h => by
    unfold sumLens at h
    split at h
    · next e' hk =>
      cases h
      refine ⟨?_, a, List.mem_cons_self, fun n hn => ?_⟩
      · unfold oldDeclLen at hk
        repeat' split at hk
        all_goals (cases hk; try simp)
      · rw [oldDeclLen_iff.2 hn] at hk
        cases hk
    · split at h
      · next e' hm =>
        cases h
        obtain ⟨h1, b, hb, h2⟩ := sumLens_error hm
        exact ⟨h1, b, List.mem_cons_of_mem _ hb, h2⟩
      · cases h

theorem checkFirstMaps_true : ∀ {ms : List (Mat F64)}, checkFirstMaps ms = .ok true ↔
    ∀ m ∈ ms, m.maps.head? = some kitsMap
  | [] => by simp [checkFirstMaps]
  | m :: ms => by
    unfold checkFirstMaps
    rw [checkMap_true, checkFirstMaps_true, List.forall_mem_cons, List.head?_eq_getElem?]

theorem checkFirstMaps_error : ∀ {ms : List (Mat F64)} {e : Err}, checkFirstMaps ms = .error e →
    e = .indexError ∧ ∃ m ∈ ms, m.maps = []
  | [], e, h => by cases h
  | m :: ms, e, h => by
    unfold checkFirstMaps checkMap at h
    split at h
    · next hm =>
      cases h
      exact ⟨rfl, m, List.mem_cons_self, by simpa using hm⟩
    · obtain ⟨h1, x, hx, h2⟩ := checkFirstMaps_error (thenAssert_error.1 h).2
      exact ⟨h1, x, List.mem_cons_of_mem _ hx, h2⟩

theorem partLod_ok {o : OldMesh F64} {l : OldLod F64} : partLod o.geoms 0 0 = .ok l ↔ FirstLod o l := by
  unfold partLod FirstLod
  rw [List.head?_eq_getElem?]
  rcases o.geoms[0]? with _ | g
  · simp
  · simp only [Option.some.injEq, exists_eq_left', List.head?_eq_getElem?]
    rcases g.lods[0]? with _ | l' <;> simp

theorem partLod_error {o : OldMesh F64} {e : Err} (h : partLod o.geoms 0 0 = .error e) :
    e = .indexError ∧ ∀ l, ¬ FirstLod o l := by
  refine ⟨?_, fun l hl => ?_⟩
  · unfold partLod at h
    split at h
    · cases h
      rfl
    · split at h
      · cases h
        rfl
      · cases h
  · rw [partLod_ok.2 hl] at h
    cases h

theorem partLod_bare {o : OldMesh F64} :
    partLod (o.geoms.map OldGeom.bare) 0 0 = (partLod o.geoms 0 0).map OldLod.bare := by
  unfold partLod
  rw [List.getElem?_map]
  rcases o.geoms[0]? with _ | g
  · rfl
  · simp only [Option.map_some, OldGeom.bare, List.getElem?_map]
    rcases g.lods[0]? with _ | l <;> rfl

theorem checkAttrs_cons {rest : List VAttr → Except Err Bool} {off t u : Int} {n : Nat} {w : List (Int × Int)}
    {attrs : List VAttr} (ht : oldDeclLen t = .ok n) : checkAttrs rest off ((t, u) :: w) attrs = .ok true ↔
      ∃ as, attrs = ⟨0, off, t, u⟩ :: as ∧ checkAttrs rest (off + n * 4) w as = .ok true := by
  rcases attrs with _ | ⟨a, as⟩
  · simp [checkAttrs]
  · rw [checkAttrs, thenAssert_true, decide_eq_true_eq]
    constructor
    · rintro ⟨rfl, h⟩
      rw [ht] at h
      exact ⟨as, rfl, h⟩
    · rintro ⟨_, h, h2⟩
      cases h
      refine ⟨rfl, ?_⟩
      rw [ht]
      exact h2

theorem checkAttrs_error {rest : List VAttr → Except Err Bool} {e : Err}
    (hr : ∀ as, rest as = .error e → e = .indexError ∧ as = []) :
    ∀ {w : List (Int × Int)} {off : Int} {attrs : List VAttr}, (∀ x ∈ w, ∃ n, oldDeclLen x.1 = .ok n) →
      checkAttrs rest off w attrs = .error e → e = .indexError ∧ attrs.length ≤ w.length
  | [], off, attrs, hw, h => by
    obtain ⟨h1, rfl⟩ := hr attrs h
    exact ⟨h1, Nat.le_refl _⟩
  | x :: w, off, [], hw, h => by
    cases h
    exact ⟨rfl, Nat.zero_le _⟩
  | (t, u) :: w, off, a :: as, hw, h => by
    unfold checkAttrs at h
    rw [thenAssert_error, decide_eq_true_eq] at h
    obtain ⟨rfl, h⟩ := h
    obtain ⟨n, hn⟩ := hw (t, u) List.mem_cons_self
    simp only at hn h
    rw [hn] at h
    obtain ⟨h1, h2⟩ := checkAttrs_error hr (fun x hx => hw x (List.mem_cons_of_mem _ hx)) h
    exact ⟨h1, Nat.succ_le_succ h2⟩

theorem checkVattrs_true (p : OldPart F64) :
    checkVattrs p = .ok true ↔ readTable <+: p.vattrs ∧ p.vattrs.length = p.vertattribnum := by
  have e2 : oldDeclLen 2 = .ok 3 := rfl
  have e1 : oldDeclLen 1 = .ok 2 := rfl
  have e4 : oldDeclLen 4 = .ok 1 := rfl
  unfold checkVattrs
  simp only [checkAttrs_cons e2, checkAttrs_cons e1, checkAttrs_cons e4]
  constructor
  · rintro ⟨a1, h1, a2, h2, a3, h3, a4, h4, a5, h5, a6, h6, a7, h7, a8, h8, h⟩
    unfold checkAttrs at h
    split at h
    · cases h
    next x a9 =>
    simp only [thenAssert_true, decide_eq_true_eq, Except.ok.injEq] at h
    obtain ⟨rfl, h⟩ := h
    refine ⟨⟨a9, ?_⟩, h⟩
    rw [h1, h2, h3, h4, h5, h6, h7, h8]
    rfl
  · rintro ⟨⟨as, h⟩, hn⟩
    refine ⟨_, h.symm, _, rfl, _, rfl, _, rfl, _, rfl, _, rfl, _, rfl, _, rfl, ?_⟩
    unfold checkAttrs
    simp [thenAssert_true, hn]

theorem checkVattrs_error {p : OldPart F64} {e : Err} (h : checkVattrs p = .error e) :
    e = .indexError ∧ p.vattrs.length < 9 := by
  unfold checkVattrs at h
  obtain ⟨h1, h2⟩ := checkAttrs_error (fun as ha => by
    rcases as with _ | ⟨a, as⟩
    · cases ha
      exact ⟨rfl, rfl⟩
    · rw [thenAssert_error] at ha
      cases ha.2) (by simp [oldDeclLen]) h
  exact ⟨h1, Nat.lt_succ_of_le h2⟩

theorem checkMap_error {maps : List Bytes} {i : Nat} {name : Bytes} {rest : Except Err Bool} {e : Err}
    (h : checkMap maps i name rest = .error e) : (e = .indexError ∧ maps.length ≤ i) ∨ rest = .error e := by
  unfold checkMap at h
  split at h
  · next hm =>
    cases h
    exact .inl ⟨rfl, by simpa using hm⟩
  · exact .inr (thenAssert_error.1 h).2

end Bf2
