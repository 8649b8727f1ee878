import Verif.OldSpec
import Verif.MeshLemmas
import Verif.FormatLemmas

/-! # Lemmas about loading and saving in the deprecated module -/

namespace Bf2

variable {F : Type} [FCodec F]

/-! ## Readers that are images of readers of the package -/

theorem toSigned_two (n : Nat) : toSigned 2 n = signed16 n := by
  unfold toSigned signed16
  rw [show 2 ^ (8 * 2 - 1) = 32768 from rfl, show (2 : Int) ^ (8 * 2) = 65536 from rfl]
  split <;> split <;> omega

theorem readSignedShort_eq (pl : Plat) : readSignedShort pl = signed16 <$> readShort1 pl := by
  unfold readSignedShort readShort1
  simp only [map_eq_pure_bind, bind_assoc, pure_bind, toSigned_two]

theorem oldLoadVAttr_eq (pl : Plat) : oldLoadVAttr pl = VAttr.signed <$> loadVAttr pl := by
  unfold oldLoadVAttr loadVAttr
  rw [readSignedShort_eq]
  simp only [map_eq_pure_bind, bind_assoc, pure_bind]
  rfl

theorem readTuple_eq {α : Type} (p : P α) (n : Int) :
    readTuple p n = OneOrMany.elems <$> readCount p n := by
  unfold readTuple readCount
  split
  · rfl
  · split
    · rename_i h
      subst h
      simp only [map_eq_pure_bind, bind_assoc, pure_bind]
      change P.rep p 1 = _
      simp only [P.rep, pure_bind]
      rfl
    · simp only [map_eq_pure_bind, bind_assoc, pure_bind]
      exact (bind_pure _).symm

theorem oldLoadNodes_eq (pl : Plat) (k : Kind) (n : Int) :
    oldLoadNodes (F := F) pl k n = List.getLast? <$> loadNodes pl k n := by
  unfold oldLoadNodes loadNodes
  split
  · rfl
  · simp only [map_eq_pure_bind]

theorem oldLoadLodNodes_eq (pl : Plat) (v : Int) (k : Kind) :
    oldLoadLodNodes (F := F) pl v k = Lod.old k 0 <$> loadLodNodes pl v k := by
  unfold oldLoadLodNodes loadLodNodes
  by_cases hk : k.isSkinned = true
  · simp only [hk, if_true, map_eq_pure_bind, bind_assoc, pure_bind, Lod.old]
    rfl
  · rw [Bool.not_eq_true] at hk
    simp only [hk, Bool.false_eq_true, if_false, oldLoadNodes_eq, map_eq_pure_bind, bind_assoc, pure_bind, Lod.old]

/-- A geom before its materials are read. -/
def Geom.old0 (k : Kind) (g : Geom F) : OldGeom F := ⟨g.lodnum, g.lods.map (Lod.old k 0)⟩

theorem oldLoadGeomNodes_eq (pl : Plat) (v : Int) (k : Kind) (n : Int) :
    oldLoadGeomNodes (F := F) pl v k n = Geom.old0 k <$> loadGeomNodes pl v k n := by
  unfold oldLoadGeomNodes loadGeomNodes
  rw [P.rep_map (oldLoadLodNodes_eq pl v k)]
  simp only [map_eq_pure_bind, bind_assoc, pure_bind, Geom.old0]

/-! ## The materials -/

omit [FCodec F] in
theorem lastInum_of {mats : List (Mat F)} {i : Int} (h : mats.getLast?.map Mat.inum = some i) :
    lastInum mats = i := by
  unfold lastInum; rw [h]; rfl

theorem oldLoadLodMaterials_of {pl : Plat} {v : Int} {k : Kind} {l l' : Lod F} {s r : Bytes}
    {prev : List (Mat F)} (h : loadLodMaterials pl v k l s = .ok (l', r)) :
    oldLoadLodMaterials pl v k (prev.getLast?.map Mat.inum) (l.old k 0) s =
      if prev = [] ∧ l'.materials = [] then .error .unboundLocalError
      else .ok (((prev ++ l'.materials).getLast?.map Mat.inum,
        l'.old k (lastInum (prev ++ l'.materials))), r) := by
  unfold loadLodMaterials at h
  simp only [P.bind_ok, P.pure_ok] at h
  obtain ⟨n, s1, h1, mats, s2, h2, rfl, rfl⟩ := h
  unfold oldLoadLodMaterials
  simp only [P.bind_run, h1, h2]
  rcases hm : mats.getLast? with _ | x
  · rw [List.getLast?_eq_none_iff] at hm
    subst hm
    rw [List.append_nil]
    rcases hp : prev.getLast? with _ | y
    · rw [List.getLast?_eq_none_iff] at hp
      rw [if_pos ⟨hp, rfl⟩]
      rfl
    · rw [if_neg (by rintro ⟨rfl, -⟩; cases hp), lastInum_of (i := y.inum) (by rw [hp]; rfl)]
      rfl
  · have hl : (prev ++ mats).getLast? = some x := by rw [List.getLast?_append, hm]; rfl
    rw [if_neg (by rintro ⟨-, h⟩; rw [show mats = [] from h] at hm; cases hm), hl,
      lastInum_of (i := x.inum) (by rw [hl]; rfl)]
    rfl

theorem oldLoadLods_of {pl : Plat} {v : Int} {k : Kind} {ls ls' : List (Lod F)} {s r : Bytes}
    {prev : List (Mat F)} (h : P.each (loadLodMaterials pl v k) ls s = .ok (ls', r)) :
    P.scan (oldLoadLodMaterials pl v k) (prev.getLast?.map Mat.inum) (ls.map (Lod.old k 0)) s =
      if prev = [] ∧ FirstEmpty ls' then .error .unboundLocalError
      else .ok (((prev ++ ls'.flatMap Lod.materials).getLast?.map Mat.inum, oldLods k prev ls'),
        r) := by
  induction ls generalizing s ls' prev with
  | nil =>
    simp only [P.each, P.pure_ok] at h
    obtain ⟨rfl, rfl⟩ := h
    rw [if_neg (by rintro ⟨-, l, h, -⟩; simp at h)]
    simp [P.scan, oldLods, P.pure_run]
  | cons l ls ih =>
    simp only [P.each, P.bind_ok, P.pure_ok] at h
    obtain ⟨l', s1, h1, ls', s2, h2, rfl, rfl⟩ := h
    simp only [List.map_cons, P.scan, P.bind_run, oldLoadLodMaterials_of (prev := prev) h1]
    by_cases hc : prev = [] ∧ l'.materials = []
    · rw [if_pos hc, if_pos ⟨hc.1, l', rfl, hc.2⟩]
    · rw [if_neg hc, if_neg (by rintro ⟨rfl, k, hk, hm⟩; simp at hk; subst hk; exact hc ⟨rfl, hm⟩)]
      simp only
      rw [ih h2, if_neg (by rintro ⟨h, -⟩; rw [List.append_eq_nil_iff] at h; exact hc h)]
      simp [oldLods, P.pure_run]

omit [FCodec F] in
theorem oldLods_old0 (g : Geom F) (k : Kind) : (g.old0 k).lods = g.lods.map (Lod.old k 0) := rfl

theorem oldLoadGeoms_of {pl : Plat} {v : Int} {k : Kind} {gs gs' : List (Geom F)} {s r : Bytes}
    {prev : List (Mat F)} (h : P.each (loadGeomMaterials pl v k) gs s = .ok (gs', r)) :
    P.scan (oldLoadGeomMaterials pl v k) (prev.getLast?.map Mat.inum) (gs.map (Geom.old0 k)) s =
      if prev = [] ∧ FirstEmpty (gs'.flatMap Geom.lods) then .error .unboundLocalError
      else .ok (((prev ++ gs'.flatMap Geom.mats).getLast?.map Mat.inum, oldGeoms k prev gs'),
        r) := by
  induction gs generalizing s gs' prev with
  | nil =>
    simp only [P.each, P.pure_ok] at h
    obtain ⟨rfl, rfl⟩ := h
    rw [if_neg (by rintro ⟨-, l, h, -⟩; simp at h)]
    simp [P.scan, oldGeoms, P.pure_run]
  | cons g gs ih =>
    simp only [P.each, P.bind_ok, P.pure_ok] at h
    obtain ⟨g', s1, h1, gs', s2, h2, rfl, rfl⟩ := h
    unfold loadGeomMaterials at h1
    simp only [P.bind_ok, P.pure_ok] at h1
    obtain ⟨ls', s3, h3, rfl, rfl⟩ := h1
    have e := oldLoadLods_of (prev := prev) h3
    simp only [List.map_cons, P.scan, P.bind_run, oldLoadGeomMaterials, oldLods_old0, e]
    have hhead : ∀ (l : Lod F), ls'.head? = some l →
        (ls' ++ gs'.flatMap Geom.lods).head? = some l := by
      intro l hl
      cases ls' <;> simp_all
    by_cases hc : prev = [] ∧ FirstEmpty ls'
    · obtain ⟨hp, l, hl, hm⟩ := hc
      rw [if_pos ⟨hp, l, hl, hm⟩, if_pos ⟨hp, l, by simpa using hhead l hl, hm⟩]
    · rw [if_neg hc]
      simp only [P.pure_run]
      rw [ih h2]
      have hmats : Geom.mats { g with lods := ls' } = ls'.flatMap Lod.materials := rfl
      by_cases hcc : prev = [] ∧ FirstEmpty ((({ g with lods := ls' } : Geom F) :: gs').flatMap
          Geom.lods)
      · obtain ⟨hp, l, hl, hm⟩ := hcc
        have hnil : ls' = [] := by
          rcases ls' with _ | ⟨a, ls'⟩
          · rfl
          · simp at hl; subst hl; exact absurd ⟨hp, a, rfl, hm⟩ hc
        subst hnil
        rw [if_pos (by exact ⟨by simpa using hp, l, by simpa using hl, hm⟩),
          if_pos (by exact ⟨hp, l, hl, hm⟩)]
      · rw [if_neg hcc, if_neg]
        · simp [oldGeoms, Geom.mats, Geom.old0]
        · rintro ⟨h, l, hl, hm⟩
          rw [List.append_eq_nil_iff] at h
          refine hcc ⟨h.1, ?_⟩
          rcases ls' with _ | ⟨a, ls'⟩
          · exact ⟨l, by simpa using hl, hm⟩
          · refine ⟨a, by simp, ?_⟩
            have := h.2
            simp at this
            exact this.1

theorem scan_lods_ok {pl : Plat} {v : Int} {k : Kind} {ls : List (Lod F)} {s r : Bytes}
    {st st' : Option Int} {os : List (OldLod F)}
    (h : P.scan (oldLoadLodMaterials pl v k) st (ls.map (Lod.old k 0)) s = .ok ((st', os), r)) :
    ∃ ls', P.each (loadLodMaterials pl v k) ls s = .ok (ls', r) := by
  induction ls generalizing s st os with
  | nil =>
    simp only [List.map_nil, P.scan, P.pure_ok] at h
    exact ⟨[], by rw [← h.2]; rfl⟩
  | cons l ls ih =>
    simp only [List.map_cons, P.scan, P.bind_ok] at h
    obtain ⟨⟨st1, o⟩, s1, h1, ⟨st2, os2⟩, s2, h2, h3⟩ := h
    simp only [P.pure_ok, Prod.mk.injEq] at h3
    obtain ⟨⟨rfl, -⟩, rfl⟩ := h3
    obtain ⟨ls', hls⟩ := ih h2
    unfold oldLoadLodMaterials at h1
    simp only [P.bind_ok] at h1
    obtain ⟨n, s3, h4, mats, s4, h5, h6⟩ := h1
    have hs : s4 = s1 := by
      rcases hm : mats.getLast? with _ | x
      · rw [hm] at h6
        cases st with
        | none => cases h6
        | some i => simp only [P.pure_ok] at h6; exact h6.2
      · rw [hm] at h6
        simp only [P.pure_ok] at h6; exact h6.2
    subst hs
    refine ⟨{ l with matnum := n, materials := mats } :: ls', ?_⟩
    simp only [P.each, P.bind_run, loadLodMaterials, h4, h5, P.pure_run, hls]

theorem scan_geoms_ok {pl : Plat} {v : Int} {k : Kind} {gs : List (Geom F)} {s r : Bytes}
    {st st' : Option Int} {os : List (OldGeom F)}
    (h : P.scan (oldLoadGeomMaterials pl v k) st (gs.map (Geom.old0 k)) s = .ok ((st', os), r)) :
    ∃ gs', P.each (loadGeomMaterials pl v k) gs s = .ok (gs', r) := by
  induction gs generalizing s st os with
  | nil =>
    simp only [List.map_nil, P.scan, P.pure_ok] at h
    exact ⟨[], by rw [← h.2]; rfl⟩
  | cons g gs ih =>
    simp only [List.map_cons, P.scan, P.bind_ok] at h
    obtain ⟨⟨st1, o⟩, s1, h1, ⟨st2, os2⟩, s2, h2, h3⟩ := h
    simp only [P.pure_ok, Prod.mk.injEq] at h3
    obtain ⟨⟨rfl, -⟩, rfl⟩ := h3
    obtain ⟨gs', hgs⟩ := ih h2
    unfold oldLoadGeomMaterials at h1
    simp only [P.bind_ok, oldLods_old0] at h1
    obtain ⟨⟨st3, ls⟩, s3, h4, h5⟩ := h1
    simp only [P.pure_ok] at h5
    obtain ⟨ls', hls⟩ := scan_lods_ok h4
    rw [← h5.2] at hgs
    refine ⟨{ g with lods := ls' } :: gs', ?_⟩
    simp only [P.each, P.bind_run, loadGeomMaterials, hls, P.pure_run, hgs]

/-! ## The whole file -/

theorem oldLoadVertices_of {pl : Plat} {a b c : Int} {s r : Bytes} {l : List F}
    (h : loadVertices pl a b c s = .ok (l, r)) : oldLoadVertices pl a b c s = .ok (l, r) := by
  unfold loadVertices at h
  unfold oldLoadVertices
  rcases hd : dataNum a b c with e | n
  · rw [hd] at h; cases h
  · rw [hd] at h
    simp only [P.bind_ok] at h
    obtain ⟨x, s', h1, h2⟩ := h
    simp only
    rw [readTuple_eq, P.map_run]
    rw [readFloat] at h1
    rw [h1]
    cases x with
    | one a => cases h2
    | many l' =>
      simp only [P.pure_ok] at h2
      obtain ⟨rfl, rfl⟩ := h2
      rfl

theorem oldLoadVertices_ok {pl : Plat} {a b c : Int} {s r : Bytes} {l : List F}
    (h : oldLoadVertices pl a b c s = .ok (l, r)) :
    loadVertices pl a b c s = .ok (l, r) ∨ l.length = 1 := by
  unfold oldLoadVertices at h
  unfold loadVertices
  rcases hd : dataNum a b c with e | n
  · rw [hd] at h; cases h
  · rw [hd] at h
    simp only at h
    rw [readTuple_eq, P.map_ok] at h
    obtain ⟨x, h1, rfl⟩ := h
    cases x with
    | one a => exact .inr rfl
    | many l =>
      left
      simp only [P.bind_run, readFloat, h1]
      rfl

theorem oldLoadGeomNodes_each (pl : Plat) (v : Int) (k : Kind) (ns : List Int) :
    P.each (oldLoadGeomNodes (F := F) pl v k) ns =
      List.map (Geom.old0 k) <$> P.each (loadGeomNodes pl v k) ns := by
  have := P.each_map (g := id) (fun n => oldLoadGeomNodes_eq (F := F) pl v k n) ns
  rwa [List.map_id] at this

theorem oldLoadBody_of {pl : Plat} {k : Kind} {s r : Bytes} {m : Mesh F}
    (h : loadBody pl k s = .ok (m, r)) :
    oldLoadBody pl k s =
      if FirstEmpty m.lods then .error .unboundLocalError else .ok (m.old, r) := by
  unfold loadBody at h
  simp only [P.bind_ok, P.pure_ok] at h
  obtain ⟨head, s1, h1, u1, s2, h2, gn, s3, h3, lns, s4, h4, vn, s5, h5, va, s6, h6, vf, s7, h7,
    vst, s8, h8, vnum, s9, h9, vs, s10, h10, inum, s11, h11, ix, s12, h12, u2, s13, h13, g0, s14,
    h14, gs, s15, h15, rfl, rfl⟩ := h
  have e6 : P.rep (oldLoadVAttr pl) vn.toNat s5 = .ok (va.map VAttr.signed, s6) := by
    rw [P.rep_map (oldLoadVAttr_eq pl), P.map_run, h6]
  have e12 : readTuple (readShort1 pl) inum s11 = .ok (ix.elems, s12) := by
    rw [readTuple_eq, P.map_run]
    rw [readShort] at h12
    rw [h12]
  have e14 : P.each (oldLoadGeomNodes (F := F) pl head.version k) lns s13 =
      .ok (g0.map (Geom.old0 k), s14) := by
    rw [oldLoadGeomNodes_each, P.map_run, h14]
  have e15 := oldLoadGeoms_of (prev := []) h15
  unfold oldLoadBody
  simp only [P.bind_run, h1, h2, h3, h4, h5, e6, h7, h8, h9, oldLoadVertices_of h10, h11, e12, h13,
    e14]
  simp only [List.getLast?_nil, Option.map_none, true_and, List.nil_append] at e15
  rw [e15]
  unfold Mesh.lods
  by_cases hf : FirstEmpty (gs.flatMap Geom.lods)
  · rw [if_pos hf, if_pos (by exact hf)]
  · rw [if_neg hf, if_neg (by exact hf)]
    rfl

theorem oldLoadBody_ok {pl : Plat} {k : Kind} {s r : Bytes} {o : OldMesh F}
    (h : oldLoadBody pl k s = .ok (o, r)) :
    o.vertices.length = 1 ∨ ∃ m, loadBody pl k s = .ok (m, r) ∧ ¬ FirstEmpty m.lods ∧
      o = m.old := by
  by_cases hone : o.vertices.length = 1
  · exact .inl hone
  right
  have h' := h
  unfold oldLoadBody at h
  simp only [P.bind_ok] at h
  obtain ⟨head, s1, h1, u1, s2, h2, gn, s3, h3, lns, s4, h4, vn, s5, h5, va, s6, h6, vf, s7, h7,
    vst, s8, h8, vnum, s9, h9, vs, s10, h10, inum, s11, h11, ix, s12, h12, u2, s13, h13, g0, s14,
    h14, ⟨st, gs⟩, s15, h15, h16⟩ := h
  simp only [P.pure_ok] at h16
  obtain ⟨rfl, rfl⟩ := h16
  rw [P.rep_map (oldLoadVAttr_eq pl), P.map_ok] at h6
  obtain ⟨va', h6, rfl⟩ := h6
  rw [readTuple_eq, P.map_ok] at h12
  obtain ⟨ix', h12, rfl⟩ := h12
  rw [oldLoadGeomNodes_each, P.map_ok] at h14
  obtain ⟨g0', h14, rfl⟩ := h14
  obtain ⟨gs', h15'⟩ := scan_geoms_ok h15
  have h10' := (oldLoadVertices_ok h10).resolve_right hone
  have hb : ∃ m, loadBody (F := F) pl k s = .ok (m, s15) := by
    unfold loadBody
    simp only [P.bind_run, h1, h2, h3, h4, h5, h6, h7, h8, h9, h10', h11, readShort, h12, h13, h14,
      h15']
    exact ⟨_, rfl⟩
  obtain ⟨m, hm⟩ := hb
  refine ⟨m, hm, ?_⟩
  rw [oldLoadBody_of hm] at h'
  split at h'
  · cases h'
  · rename_i hne
    injection h' with h'
    exact ⟨hne, (Prod.mk.inj h').1.symm⟩

end Bf2
