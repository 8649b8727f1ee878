import Verif.ColFailLemmas
import Verif.OldFailSpec
import Verif.OldLemmas
import Verif.OldStagesLemmas
import Verif.OldFailedLemmas

/-! # Where the deprecated loader fails -/

namespace Bf2

variable {F : Type} [FCodec F]

/-- What is known before the vertex block. -/
def Preamble.part (p : Preamble) : OldPart F :=
  ⟨some p.head, p.u1, p.geomnum, p.lodnums, p.vertattribnum, p.vattrs.map VAttr.signed, p.vertformat,
    p.vertstride, p.vertnum, [], 0, [], 0, []⟩

theorem rep_mapped {α β : Type} (f : α → β) (p : P α) (n : Nat) : P.rep (f <$> p) n = List.map f <$> P.rep p n := by
  induction n with
  | zero => rfl
  | succ n ih =>
    simp only [P.rep, ih]
    simp only [map_eq_pure_bind, bind_assoc, pure_bind, List.map_cons]

omit [FCodec F] in
theorem readVertnumPart_eq (pl : Plat) :
    readVertnumPart (F := F) pl = (loadPreamble pl >>= fun p => pure p.part) := by
  unfold readVertnumPart readVertstridePart readVertformatPart readVattrsPart readVattrnumPart
    readGeomTablePart readGeomnumPart readU1Part readHeadPart loadPreamble
  rw [oldLoadVAttr_eq]
  simp only [rep_mapped]
  simp only [map_eq_pure_bind, bind_assoc, pure_bind, OldPart.fresh, Preamble.part]

theorem readTuple_struct {α : Type} {p : P α} (hp : OnlyStruct p) (n : Int) : OnlyStruct (readTuple p n) :=
  .ite .raise (.rep hp _)

theorem oldLoadVertices_error {pl : Plat} {a b c : Int} {s : Bytes} {e : Err}
    (h : oldLoadVertices (F := F) pl a b c s = .error e) :
    e = .structError ∨ (e = .zeroDivisionError ∧ b = 0) := by
  unfold oldLoadVertices dataNum at h
  by_cases hb : b = 0
  · rw [if_pos hb] at h
    cases h
    exact .inr ⟨rfl, hb⟩
  · rw [if_neg hb] at h
    exact .inl (readTuple_struct (.readFloat1 pl) _ _ _ h)

theorem oldLoadLodNodes_struct (pl : Plat) (v : Int) (k : Kind) :
    OnlyStruct (oldLoadLodNodes (F := F) pl v k) :=
  .bind (.readFloat3 pl) fun _ => .bind (.readFloat3 pl) fun _ =>
    .bind (.ite (.bind (.readFloat3 pl) fun _ => .pure _) (.pure _)) fun _ =>
      .ite (.bind (.readLong pl) fun _ => .bind (.rep (.loadRig pl) _) fun _ => .pure _)
        (.bind (.readLong pl) fun _ =>
          .bind (.ite (.pure _) (.bind (.rep (.readMatrix4 pl) _) fun _ => .pure _)) fun _ => .pure _)

omit [FCodec F] in
/-- A part raises what the parts before it raise, or `struct.error`. -/
theorem part_error {α : Type} {p : P (OldPart F)} {step : OldPart F → P α} {f : OldPart F → α → OldPart F}
    {s : Bytes} {e : Err} (hs : ∀ x, OnlyStruct (step x))
    (h : (do let y ← p; let z ← step y; pure (f y z) : P (OldPart F)) s = .error e) :
    e = .structError ∨ p s = .error e := by
  rw [P.bind_run] at h
  rcases hp : p s with e' | ⟨x, r⟩
  · rw [hp] at h
    cases h
    exact .inr rfl
  · rw [hp] at h
    exact .inl (OnlyStruct.bind (hs x) (fun _ => .pure _) _ _ h)

theorem readNodesPart_error {pl : Plat} {k : Kind} {s : Bytes} {e : Err}
    (h : readNodesPart (F := F) pl k s = .error e) :
    e = .structError ∨ (e = .zeroDivisionError ∧ ∃ (p : Preamble) (bs rest : Bytes), p.Bytes pl bs ∧
      s = bs ++ rest ∧ p.vertformat = 0) := by
  rcases part_error (fun _ => .each (fun _ => .bind (.rep (oldLoadLodNodes_struct pl _ k) _) fun _ => .pure _) _)
    h with h1 | h1
  · exact .inl h1
  clear h
  rcases part_error (fun _ => .ite (.pure _) (.readLong pl)) h1 with h2 | h2
  · exact .inl h2
  clear h1
  rcases part_error (fun _ => readTuple_struct (.readShort1 pl) _) h2 with h1 | h1
  · exact .inl h1
  clear h2
  rcases part_error (fun _ => .readLong pl) h1 with h | h
  · exact .inl h
  clear h1
  unfold readVerticesPart at h
  rw [readVertnumPart_eq, bind_assoc, P.bind_run] at h
  rcases hp : loadPreamble pl s with e' | ⟨p, r⟩
  · rw [hp] at h
    cases h
    exact .inl (loadPreamble_struct pl _ _ hp)
  · rw [hp] at h
    obtain ⟨bs, hb, rfl⟩ := loadPreamble_sound hp
    replace h : (oldLoadVertices (F := F) pl p.vertstride p.vertformat p.vertnum >>= fun x =>
      pure { (p.part : OldPart F) with vertices := x }) r = .error e := h
    rw [P.bind_run] at h
    rcases hv : oldLoadVertices (F := F) pl p.vertstride p.vertformat p.vertnum r with e' | ⟨x, r'⟩
    · rw [hv] at h
      cases h
      rcases oldLoadVertices_error hv with h | ⟨h, hz⟩
      · exact .inl h
      · exact .inr ⟨h, p, bs, r, hb, rfl, hz⟩
    · rw [hv] at h
      cases h

theorem loadPreamble_complete {pl : Plat} {p : Preamble} {bs : Bytes} (h : p.Bytes pl bs) (rest : Bytes) :
    loadPreamble pl (bs ++ rest) = .ok (p, rest) := by
  obtain ⟨h1, h2, h3⟩ := h
  have h3 := (preamble_writes p bs).2 h3
  simp only [Out.all] at h3
  obtain ⟨a1, r1, w1, g1, rfl⟩ := Out.seq_ok.1 h3
  obtain ⟨a2, r2, w2, g2, rfl⟩ := Out.seq_ok.1 g1
  obtain ⟨a3, r3, w3, g3, rfl⟩ := Out.seq_ok.1 g2
  obtain ⟨a4, r4, w4, g4, rfl⟩ := Out.seq_ok.1 g3
  obtain ⟨a5, r5, w5, g5, rfl⟩ := Out.seq_ok.1 g4
  obtain ⟨a6, r6, w6, g6, rfl⟩ := Out.seq_ok.1 g5
  obtain ⟨a7, r7, w7, g7, rfl⟩ := Out.seq_ok.1 g6
  obtain ⟨a8, r8, w8, g8, rfl⟩ := Out.seq_ok.1 g7
  obtain ⟨a9, r9, w9, g9, rfl⟩ := Out.seq_ok.1 g8
  obtain ⟨a10, r10, w10, g10, rfl⟩ := Out.seq_ok.1 g9
  obtain ⟨a11, r11, w11, g11, rfl⟩ := Out.seq_ok.1 g10
  obtain ⟨a12, r12, w12, g12, rfl⟩ := Out.seq_ok.1 g11
  obtain ⟨a13, r13, w13, g13, rfl⟩ := Out.seq_ok.1 g12
  rw [Out.nil_ok] at g13
  subst g13
  unfold loadPreamble loadHead
  simp only [bind_assoc, pure_bind, List.append_assoc, List.nil_append]
  have l := readLong_inv pl
  rw [run_ok (l.complete _ trivial w1), run_ok (l.complete _ trivial w2),
    run_ok (l.complete _ trivial w3), run_ok (l.complete _ trivial w4),
    run_ok (l.complete _ trivial w5), run_ok (readByte_inv.complete _ trivial w6),
    run_ok (l.complete _ trivial w7),
    run_ok ((l.rep p.geomnum.toNat).complete _ ⟨h1, fun _ _ => trivial⟩ w8),
    run_ok (l.complete _ trivial w9),
    run_ok (((loadVAttr_inv pl).rep p.vertattribnum.toNat).complete _ ⟨h2, fun _ _ => trivial⟩ w10),
    run_ok (l.complete _ trivial w11), run_ok (l.complete _ trivial w12),
    run_ok (l.complete _ trivial w13)]
  rfl

theorem readVerticesPart_zero {pl : Plat} {p : Preamble} {bs rest : Bytes} (hb : p.Bytes pl bs)
    (hz : p.vertformat = 0) : readVerticesPart (F := F) pl (bs ++ rest) = .error .zeroDivisionError := by
  unfold readVerticesPart
  rw [readVertnumPart_eq, bind_assoc, P.bind_run, loadPreamble_complete hb rest]
  show (oldLoadVertices (F := F) pl p.vertstride p.vertformat p.vertnum >>= _) rest = _
  rw [P.bind_run]
  unfold oldLoadVertices dataNum
  rw [if_pos hz]
  rfl

/-! ## The materials -/

/-- After the first material, only `struct.error`. -/
theorem lodMaterials_last {pl : Plat} {v : Int} {k : Kind} {i : Int} {l : OldLod F} :
    OnlyStruct (oldLoadLodMaterials pl v k (some i) l) := by
  unfold oldLoadLodMaterials
  refine .bind (.readLong pl) fun n => .bind (.rep (.loadMat pl v k) _) fun ms => ?_
  dsimp only
  rcases ms.getLast? with _ | m <;> exact .pure _

theorem lodMaterials_some {pl : Plat} {v : Int} {k : Kind} {last : Option Int} {l : OldLod F} {s r : Bytes}
    {x : Option Int × OldLod F} (h : oldLoadLodMaterials pl v k last l s = .ok (x, r)) : ∃ j, x.1 = some j := by
  unfold oldLoadLodMaterials at h
  simp only [P.bind_ok] at h
  obtain ⟨n, s1, -, ms, s2, -, h⟩ := h
  rcases hg : ms.getLast? with _ | m <;> rw [hg] at h <;> rcases last with _ | i <;> cases h <;> exact ⟨_, rfl⟩

/-- The first lod: `UnboundLocalError` exactly if the count is not above 0. -/
theorem lodMaterials_first {pl : Plat} {v : Int} {k : Kind} {l : OldLod F} {s : Bytes} {e : Err} :
    oldLoadLodMaterials pl v k none l s = .error e → e ≠ .structError →
      e = .unboundLocalError ∧ ∃ n r, IsLong pl n ∧ n ≤ 0 ∧ s = layout pl [.long n] ++ r := by
  intro h other
  unfold oldLoadLodMaterials at h
  rw [P.bind_run] at h
  rcases hl : readLong pl s with e' | ⟨n, r⟩
  · rw [hl] at h
    cases h
    exact absurd (OnlyStruct.readLong pl _ _ hl) other
  · rw [hl] at h
    obtain ⟨n', -, hf, rfl, rfl⟩ := (readLong_parses _ _ _).1 hl
    dsimp only at h
    rw [P.bind_run] at h
    rcases hm : P.rep (loadMat (F := F) pl v k) n.toNat r with e' | ⟨ms, r'⟩
    · rw [hm] at h
      cases h
      exact absurd (OnlyStruct.rep (.loadMat pl v k) _ _ _ hm) other
    · rw [hm] at h
      dsimp only at h
      rcases hg : ms.getLast? with _ | m
      · rw [hg] at h
        cases h
        have : ms = [] := List.getLast?_eq_none_iff.1 hg
        have hlen := rep_count hm
        rw [this] at hlen
        simp only [List.length_nil] at hlen
        exact ⟨rfl, n, r, hf (.long n) (List.mem_singleton.2 rfl), by omega, rfl⟩
      · rw [hg] at h
        cases h

theorem lodMaterials_none {pl : Plat} {v : Int} {k : Kind} {l : OldLod F} {n : Int} {r : Bytes}
    (hn : IsLong pl n) (h0 : n ≤ 0) :
    oldLoadLodMaterials pl v k none l (layout pl [.long n] ++ r) = .error .unboundLocalError := by
  have hl : readLong pl (layout pl [.long n] ++ r) = .ok (n, r) :=
    (readLong_parses _ _ _).2 ⟨n, trivial, by simpa [Item.Fits] using hn, rfl, rfl⟩
  have ht : n.toNat = 0 := by omega
  unfold oldLoadLodMaterials
  rw [P.bind_run, hl]
  dsimp only
  rw [ht]
  rfl

/-- Scanning with a variable that is set. -/
theorem scan_struct {σ α β : Type} {f : Option σ → α → P (Option σ × β)}
    (hf : ∀ i a, OnlyStruct (f (some i) a))
    (hs : ∀ l a s x r, f l a s = .ok (x, r) → l ≠ none → ∃ j, x.1 = some j) (as : List α) (i : σ) :
    OnlyStruct (P.scan f (some i) as) := by
  induction as generalizing i with
  | nil => exact .pure _
  | cons a as ih =>
    intro s e h
    rw [P.scan, P.bind_run] at h
    rcases hx : f (some i) a s with e' | ⟨x, r⟩
    · rw [hx] at h
      cases h
      exact hf i a _ _ hx
    · rw [hx] at h
      obtain ⟨j, hj⟩ := hs _ _ _ _ _ hx (by simp)
      obtain ⟨x1, x2⟩ := x
      obtain rfl : x1 = some j := hj
      exact OnlyStruct.bind (ih j) (fun _ => .pure _) _ _ h

theorem scan_keeps {σ α β : Type} {f : Option σ → α → P (Option σ × β)}
    (hs : ∀ l a s x r, f l a s = .ok (x, r) → l ≠ none → ∃ j, x.1 = some j) (as : List α) :
    ∀ l s x r, P.scan f l as s = .ok (x, r) → l ≠ none → ∃ j, x.1 = some j := by
  induction as with
  | nil =>
    intro l s x r h hl
    cases h
    exact Option.ne_none_iff_exists'.1 hl
  | cons a as ih =>
    intro l s x r h hl
    simp only [P.scan, P.bind_ok] at h
    obtain ⟨⟨l', b⟩, s1, h1, ⟨l'', bs⟩, s2, h2, h3⟩ := h
    obtain ⟨j, hj⟩ := hs _ _ _ _ _ h1 hl
    simp only at hj
    subst hj
    obtain ⟨j', hj'⟩ := ih _ _ _ _ h2 (by simp)
    cases h3
    exact ⟨j', hj'⟩

theorem scanLods_error {pl : Plat} {v : Int} {k : Kind} {ls : List (OldLod F)} {s : Bytes} {e : Err}
    (h : P.scan (oldLoadLodMaterials pl v k) none ls s = .error e) (other : e ≠ .structError) :
    e = .unboundLocalError ∧ ls ≠ [] ∧ ∃ n r, IsLong pl n ∧ n ≤ 0 ∧ s = layout pl [.long n] ++ r := by
  rcases ls with _ | ⟨l, ls⟩
  · cases h
  rw [P.scan, P.bind_run] at h
  rcases hx : oldLoadLodMaterials pl v k none l s with e' | ⟨x, r⟩
  · rw [hx] at h
    cases h
    obtain ⟨h1, h2⟩ := lodMaterials_first hx other
    exact ⟨h1, by simp, h2⟩
  · rw [hx] at h
    obtain ⟨j, hj⟩ := lodMaterials_some hx
    obtain ⟨x1, x2⟩ := x
    obtain rfl : x1 = some j := hj
    exact absurd (OnlyStruct.bind (scan_struct (fun _ _ => lodMaterials_last)
      (fun _ _ _ _ _ h _ => lodMaterials_some h) ls j) (fun _ => .pure _) _ _ h) other

theorem geomMaterials_keeps {pl : Plat} {v : Int} {k : Kind} :
    ∀ l (g : OldGeom F) s x r, oldLoadGeomMaterials pl v k l g s = .ok (x, r) → l ≠ none →
      ∃ j, x.1 = some j := by
  intro l g s x r h hl
  unfold oldLoadGeomMaterials at h
  simp only [P.bind_ok] at h
  obtain ⟨⟨l', ls⟩, s1, h1, h2⟩ := h
  cases h2
  exact scan_keeps (fun _ _ _ _ _ h _ => lodMaterials_some h) _ _ _ _ _ h1 hl

theorem scanGeoms_error {pl : Plat} {v : Int} {k : Kind} {gs : List (OldGeom F)} {s : Bytes} {e : Err}
    (h : P.scan (oldLoadGeomMaterials pl v k) none gs s = .error e) (other : e ≠ .structError) :
    e = .unboundLocalError ∧ (∃ g ∈ gs, g.lods ≠ []) ∧
      ∃ n r, IsLong pl n ∧ n ≤ 0 ∧ s = layout pl [.long n] ++ r := by
  induction gs generalizing s with
  | nil => cases h
  | cons g gs ih =>
    rw [P.scan, P.bind_run] at h
    rcases hx : oldLoadGeomMaterials pl v k none g s with e' | ⟨⟨l', g'⟩, r⟩
    · rw [hx] at h
      cases h
      unfold oldLoadGeomMaterials at hx
      rw [P.bind_run] at hx
      rcases hy : P.scan (oldLoadLodMaterials pl v k) none g.lods s with e' | ⟨⟨l', ls⟩, r⟩
      · rw [hy] at hx
        cases hx
        obtain ⟨h1, h2, h3⟩ := scanLods_error hy other
        exact ⟨h1, ⟨g, by simp, h2⟩, h3⟩
      · rw [hy] at hx
        cases hx
    · rw [hx] at h
      rcases l' with _ | j
      · -- no lod yet
        unfold oldLoadGeomMaterials at hx
        simp only [P.bind_ok] at hx
        obtain ⟨⟨l', ls⟩, s1, h1, h2⟩ := hx
        cases h2
        have hl : g.lods = [] := by
          rcases hg : g.lods with _ | ⟨l, tl⟩
          · rfl
          · rw [hg] at h1
            simp only [P.scan, P.bind_ok] at h1
            obtain ⟨⟨y, b⟩, s2, h3, ⟨z, bs⟩, s3, h4, h5⟩ := h1
            cases h5
            obtain ⟨j, hj⟩ := lodMaterials_some h3
            obtain ⟨j', hj'⟩ := scan_keeps (fun _ _ _ _ _ h _ => lodMaterials_some h) _ _ _ _ _ h4
              (by simp only at hj; simp [hj])
            cases hj'
        rw [hl] at h1
        cases h1
        dsimp only at h
        rw [P.bind_run] at h
        rcases hy : P.scan (oldLoadGeomMaterials pl v k) none gs s with e' | ⟨y, r⟩
        · rw [hy] at h
          cases h
          obtain ⟨h1, ⟨g', hg', h2⟩, h3⟩ := ih hy
          exact ⟨h1, ⟨g', by simp [hg'], h2⟩, h3⟩
        · rw [hy] at h
          cases h
      · refine absurd (OnlyStruct.bind (scan_struct (fun i g => ?_) geomMaterials_keeps gs j)
          (fun _ => .pure _) _ _ h) other
        exact .bind (scan_struct (fun _ _ => lodMaterials_last)
          (fun _ _ _ _ _ h _ => lodMaterials_some h) _ i) fun _ => .pure _

theorem scanGeoms_none {pl : Plat} {v : Int} {k : Kind} {gs : List (OldGeom F)} {n : Int} {r : Bytes}
    (hn : IsLong pl n) (h0 : n ≤ 0) (hg : ∃ g ∈ gs, g.lods ≠ []) :
    P.scan (oldLoadGeomMaterials pl v k) none gs (layout pl [.long n] ++ r) = .error .unboundLocalError := by
  induction gs with
  | nil => simp at hg
  | cons g gs ih =>
    rw [P.scan, P.bind_run]
    unfold oldLoadGeomMaterials
    rw [P.bind_run]
    rcases hl : g.lods with _ | ⟨l, ls⟩
    · have := ih (by
        obtain ⟨g', h1, h2⟩ := hg
        rcases List.mem_cons.1 h1 with rfl | h1
        · exact absurd hl h2
        · exact ⟨g', h1, h2⟩)
      show (P.scan (oldLoadGeomMaterials pl v k) none gs >>= _) _ = _
      rw [P.bind_run, this]
    · rw [P.scan, P.bind_run, lodMaterials_none hn h0]

/-! ## Loading -/

theorem oldLoad_raises {pl : Plat} {k : Kind} {s : Bytes} {e : Err}
    (h : readParts (F := F) pl k 15 s = .error e) : oldLoad (F := F) pl k s = .error e := by
  have hl := readParts_load (F := F) pl k s
  unfold oldLoad
  rcases ho : oldLoadBody (F := F) pl k s with e' | ⟨o, r⟩
  · rw [ho] at hl
    simp only at hl
    rw [hl] at h
    cases h
    rfl
  · rw [ho] at hl
    simp only at hl
    rw [hl] at h
    cases h

theorem oldLoad_error {pl : Plat} {k : Kind} {s : Bytes} {e : Err} (h : oldLoad (F := F) pl k s = .error e) :
    e = .structError ∨ (e = .zeroDivisionError ∧ ∃ (p : Preamble) (bs rest : Bytes), p.Bytes pl bs ∧
      s = bs ++ rest ∧ p.vertformat = 0) ∨ (e = .unboundLocalError ∧ NoFirstMaterial F pl k s) := by
  have hl := readParts_load (F := F) pl k s
  unfold oldLoad at h
  rcases ho : oldLoadBody (F := F) pl k s with e' | ⟨o, r⟩
  · rw [ho] at hl h
    cases h
    replace hl : readMaterialsPart (F := F) pl k s = .error e := hl
    unfold readMaterialsPart at hl
    rw [P.bind_run] at hl
    rcases hp : readNodesPart (F := F) pl k s with e' | ⟨p, r⟩
    · rw [hp] at hl
      cases hl
      rcases readNodesPart_error hp with h | h
      · exact .inl h
      · exact .inr (.inl h)
    · rw [hp] at hl
      dsimp only at hl
      rw [P.bind_run] at hl
      rcases hs : P.scan (oldLoadGeomMaterials pl p.version k) none p.geoms r with e' | ⟨x, r'⟩
      · rw [hs] at hl
        cases hl
        by_cases hne : e = .structError
        · exact .inl hne
        · obtain ⟨h1, h2, n, r', hn, h0, rfl⟩ := scanGeoms_error hs hne
          exact .inr (.inr ⟨h1, p, n, r', hn, h0, h2, hp⟩)
      · rw [hs] at hl
        cases hl
  · rw [ho] at h
    cases h

/-- Loading a single vertex float. -/
theorem oldLoadVertices_one {pl : Plat} {a b c : Int} {s r : Bytes} {l : List F}
    (h : oldLoadVertices pl a b c s = .ok (l, r)) (h1 : l.length = 1) :
    b ≠ 0 ∧ intDivMul a b c = 1 ∧ 4 ≤ s.length := by
  unfold oldLoadVertices dataNum at h
  by_cases hb : b = 0
  · rw [if_pos hb] at h
    cases h
  rw [if_neg hb] at h
  simp only [readTuple] at h
  by_cases hn : intDivMul a b c < 0
  · rw [if_pos hn] at h
    cases h
  rw [if_neg hn] at h
  have hc := rep_count h
  have h2 : intDivMul a b c = 1 := by omega
  refine ⟨hb, h2, ?_⟩
  rw [h2] at h
  simp only [Int.toNat_one, P.rep, P.bind_ok] at h
  obtain ⟨x, s1, hx, -⟩ := h
  simp only [readFloat1, P.bind_ok, readBytes_ok] at hx
  obtain ⟨bs, r', ⟨hl, rfl⟩, -⟩ := hx
  rw [List.length_append]
  omega

theorem oldLoadBody_preamble {pl : Plat} {k : Kind} {s r : Bytes} {o : OldMesh F}
    (h : oldLoadBody pl k s = .ok (o, r)) : ∃ p r1 r2, loadPreamble pl s = .ok (p, r1) ∧
      oldLoadVertices pl p.vertstride p.vertformat p.vertnum r1 = .ok (o.vertices, r2) := by
  unfold oldLoadBody at h
  rw [oldLoadVAttr_eq] at h
  simp only [rep_mapped] at h
  simp only [map_eq_pure_bind, bind_assoc, pure_bind] at h
  simp only [P.bind_ok] at h
  obtain ⟨a1, s1, h1, a2, s2, h2, a3, s3, h3, a4, s4, h4, a5, s5, h5, a6, s6, h6, a7, s7, h7, a8, s8, h8,
    a9, s9, h9, a10, s10, h10, a11, s11, h11, a12, s12, h12, a13, s13, h13, a14, s14, h14, a15, s15, h15,
    h16⟩ := h
  cases h16
  refine ⟨⟨a1, a2, a3, a4, a5, a6, a7, a8, a9⟩, s9, s10, ?_, h10⟩
  unfold loadPreamble
  rw [run_ok h1, run_ok h2, run_ok h3, run_ok h4, run_ok h5, run_ok h6, run_ok h7, run_ok h8, run_ok h9]
  rfl

/-! ## Bytes appended -/

/-- Appended bytes change neither what is read nor, except for `struct.error`, what is raised. -/
structure Steady {α : Type} (p : P α) : Prop where
  ok : ∀ s t x r, p s = .ok (x, r) → p (s ++ t) = .ok (x, r ++ t)
  error : ∀ s t e, e ≠ .structError → p s = .error e → p (s ++ t) = .error e

namespace Steady

variable {α β σ : Type}

theorem pure (a : α) : Steady (Pure.pure a : P α) :=
  ⟨fun _ _ _ _ h => (by cases h; rfl), fun _ _ _ _ h => (by cases h)⟩

theorem raise (e : Err) : Steady (P.raise e : P α) :=
  ⟨fun _ _ _ _ h => (by cases h), fun _ _ _ _ h => h⟩

theorem bind {p : P α} {f : α → P β} (hp : Steady p) (hf : ∀ a, Steady (f a)) : Steady (p >>= f) := by
  constructor
  · intro s t x r h
    rw [P.bind_run] at h
    rcases hs : p s with e | ⟨a, r'⟩
    · rw [hs] at h
      cases h
    · rw [hs] at h
      rw [P.bind_run, hp.ok _ t _ _ hs]
      exact (hf a).ok _ _ _ _ h
  · intro s t e he h
    rw [P.bind_run] at h
    rcases hs : p s with e' | ⟨a, r'⟩
    · rw [hs] at h
      cases h
      rw [P.bind_run, hp.error _ t _ he hs]
    · rw [hs] at h
      rw [P.bind_run, hp.ok _ t _ _ hs]
      exact (hf a).error _ _ _ he h

theorem ite {c : Prop} [Decidable c] {p q : P α} (hp : Steady p) (hq : Steady q) :
    Steady (if c then p else q) := by split <;> assumption

theorem rep {p : P α} (hp : Steady p) (n : Nat) : Steady (P.rep p n) := by
  induction n with
  | zero => exact pure _
  | succ n ih => exact bind hp fun _ => bind ih fun _ => pure _

theorem each {f : α → P β} (hf : ∀ a, Steady (f a)) (l : List α) : Steady (P.each f l) := by
  induction l with
  | nil => exact pure _
  | cons a as ih => exact bind (hf a) fun _ => bind ih fun _ => pure _

theorem scan {f : σ → α → P (σ × β)} (hf : ∀ x a, Steady (f x a)) (l : List α) :
    ∀ x, Steady (P.scan f x l) := by
  induction l with
  | nil => exact fun _ => pure _
  | cons a as ih => exact fun x => bind (hf x a) fun _ => bind (ih _) fun _ => pure _

theorem readBytes (n : Nat) : Steady (readBytes n) := by
  constructor
  · intro s t x r h
    obtain ⟨h1, rfl⟩ := readBytes_ok.1 h
    exact readBytes_ok.2 ⟨h1, by simp⟩
  · intro s t e he h
    exact absurd (OnlyStruct.readBytes n s e h) he

theorem readLong (pl : Plat) : Steady (readLong pl) := bind (readBytes _) fun _ => pure _
theorem readShort1 (pl : Plat) : Steady (readShort1 pl) := bind (readBytes _) fun _ => pure _
theorem readSignedShort (pl : Plat) : Steady (readSignedShort pl) := bind (readBytes _) fun _ => pure _
theorem readByte : Steady readByte := bind (readBytes _) fun _ => pure _

theorem readTuple {p : P α} (hp : Steady p) (n : Int) : Steady (readTuple p n) := ite (raise _) (rep hp _)

theorem readString (pl : Plat) : Steady (readString pl) := bind (readLong pl) fun _ => ite (raise _) (readBytes _)

theorem readFloat1 (pl : Plat) : Steady (readFloat1 (F := F) pl) := bind (readBytes _) fun _ => pure _

theorem readFloat3 (pl : Plat) : Steady (readFloat3 (F := F) pl) :=
  bind (readFloat1 pl) fun _ => bind (readFloat1 pl) fun _ => bind (readFloat1 pl) fun _ => pure _

theorem readFloat4 (pl : Plat) : Steady (readFloat4 (F := F) pl) :=
  bind (readFloat1 pl) fun _ => bind (readFloat1 pl) fun _ => bind (readFloat1 pl) fun _ =>
    bind (readFloat1 pl) fun _ => pure _

theorem readMatrix4 (pl : Plat) : Steady (readMatrix4 (F := F) pl) :=
  bind (readFloat4 pl) fun _ => bind (readFloat4 pl) fun _ => bind (readFloat4 pl) fun _ =>
    bind (readFloat4 pl) fun _ => pure _

theorem loadHead (pl : Plat) : Steady (loadHead pl) :=
  bind (readLong pl) fun _ => bind (readLong pl) fun _ => bind (readLong pl) fun _ =>
    bind (readLong pl) fun _ => bind (readLong pl) fun _ => pure _

theorem oldLoadVAttr (pl : Plat) : Steady (oldLoadVAttr pl) :=
  bind (readSignedShort pl) fun _ => bind (readSignedShort pl) fun _ => bind (readSignedShort pl) fun _ =>
    bind (readSignedShort pl) fun _ => pure _

theorem loadRig (pl : Plat) : Steady (loadRig (F := F) pl) :=
  bind (readLong pl) fun _ => bind (rep (bind (readLong pl) fun _ => bind (readMatrix4 pl) fun _ => pure _) _)
    fun _ => pure _

theorem loadMat (pl : Plat) (v : Int) (k : Kind) : Steady (loadMat (F := F) pl v k) :=
  bind (ite (pure _) (bind (readLong pl) fun _ => pure _)) fun _ => bind (readString pl) fun _ =>
    bind (readString pl) fun _ => bind (readLong pl) fun _ => bind (rep (readString pl) _) fun _ =>
    bind (readLong pl) fun _ => bind (readLong pl) fun _ => bind (readLong pl) fun _ =>
    bind (readLong pl) fun _ => bind (readLong pl) fun _ => bind (readLong pl) fun _ =>
    ite (bind (readFloat3 pl) fun _ => bind (readFloat3 pl) fun _ => pure _) (pure _)

theorem oldLoadVertices (pl : Plat) (a b c : Int) : Steady (oldLoadVertices (F := F) pl a b c) := by
  unfold Bf2.oldLoadVertices
  split
  · exact raise _
  · exact readTuple (readFloat1 pl) _

theorem oldLoadLodNodes (pl : Plat) (v : Int) (k : Kind) : Steady (oldLoadLodNodes (F := F) pl v k) :=
  bind (readFloat3 pl) fun _ => bind (readFloat3 pl) fun _ =>
    bind (ite (bind (readFloat3 pl) fun _ => pure _) (pure _)) fun _ =>
      ite (bind (readLong pl) fun _ => bind (rep (loadRig pl) _) fun _ => pure _)
        (bind (readLong pl) fun _ =>
          bind (ite (pure _) (bind (rep (readMatrix4 pl) _) fun _ => pure _)) fun _ => pure _)

theorem oldLoadLodMaterials (pl : Plat) (v : Int) (k : Kind) (last : Option Int) (l : OldLod F) :
    Steady (oldLoadLodMaterials pl v k last l) := by
  refine bind (readLong pl) fun n => bind (rep (loadMat pl v k) _) fun ms => ?_
  dsimp only
  rcases ms.getLast? with _ | m
  · rcases last with _ | i
    · exact raise _
    · exact pure _
  · exact pure _

theorem oldLoadGeomMaterials (pl : Plat) (v : Int) (k : Kind) (last : Option Int) (g : OldGeom F) :
    Steady (oldLoadGeomMaterials pl v k last g) :=
  bind (scan (oldLoadLodMaterials pl v k) _ _) fun _ => pure _

theorem oldLoadBody (pl : Plat) (k : Kind) : Steady (oldLoadBody (F := F) pl k) :=
  bind (loadHead pl) fun _ => bind readByte fun _ => bind (readLong pl) fun _ =>
    bind (rep (readLong pl) _) fun _ => bind (readLong pl) fun _ => bind (rep (oldLoadVAttr pl) _) fun _ =>
    bind (readLong pl) fun _ => bind (readLong pl) fun _ => bind (readLong pl) fun _ =>
    bind (oldLoadVertices pl _ _ _) fun _ => bind (readLong pl) fun _ =>
    bind (readTuple (readShort1 pl) _) fun _ => bind (ite (pure _) (readLong pl)) fun _ =>
    bind (each (fun _ => bind (rep (oldLoadLodNodes pl _ k) _) fun _ => pure _) _) fun _ =>
    bind (scan (oldLoadGeomMaterials pl _ k) _ _) fun _ => pure _

end Steady

end Bf2
