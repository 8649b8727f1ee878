import Verif.OldReadTestsLemmas
import Verif.Props.ColTests
import Verif.Props.ColSize
import Verif.Props.OldFail
import Verif.Props.OldSample
import Verif.Props.OldStages

/-! # C168: what the tests that only read say about a file -/

namespace Bf2

/-- The flags that the readers look at. -/
def ReadTest.Fits (t : ReadTest) (k : Kind) : Prop :=
  k.isSkinned = t.kind.isSkinned ∧ k.isBundled = t.kind.isBundled

theorem ReadTest.parts_range (t : ReadTest) : 1 ≤ t.parts ∧ t.parts ≤ 15 := by
  cases t <;> exact ⟨by decide, by decide⟩

theorem readTest_loaded {pl : Plat} {fs : FS} {path : Str} {file : Bytes} {k : Kind} {o : OldMesh F64} {t : ReadTest}
    (read : fs.read path = .ok file) (fits : t.Fits k) (loaded : oldLoad pl k file = .ok o) :
    (o.vertformat ≠ 0 ∧ |o.vertformat| < 2 ^ 64) ∧ (∀ g ∈ o.geoms, ∀ l ∈ g.lods, OneMat l) ∧
      t.run pl fs path = t.check (o.upTo t.parts) := by
  unfold oldLoad at loaded
  split at loaded
  · cases loaded
  next o' r h =>
  cases loaded
  obtain ⟨h1, h2, r', h3⟩ := readParts_loaded h t.parts_range.1 t.parts_range.2
  refine ⟨h1, h2, ?_⟩
  unfold ReadTest.run readTest
  rw [read]
  simp only
  rw [readParts_kind pl fits.1.symm fits.2.symm, h3]

/-- **C168.** On a file that loads, a test passes exactly if what it says about the mesh is true; the test of the
vertices if moreover the numbers are not too large for a double. -/
theorem C168_passes {pl : Plat} {fs : FS} {path : Str} {file : Bytes} {k : Kind} {o : OldMesh F64} {t : ReadTest}
    (read : fs.read path = .ok file) (fits : t.Fits k) (loaded : oldLoad pl k file = .ok o)
    (small : t = .vertices → |o.vertnum * o.vertstride| < 2 ^ 53) :
    t.run pl fs path = .ok true ↔ t.Says o := by
  obtain ⟨⟨hz, hb⟩, hone, hrun⟩ := readTest_loaded read fits loaded
  rw [hrun]
  cases t with
  | header =>
    change thenAssert _ _ = _ ↔ _ ∧ _
    simp only [thenAssert_true, decide_eq_true_eq, Except.ok.injEq, List.mem_cons, List.not_mem_nil, or_false]
    tauto
  | u1 => simp [ReadTest.check, ReadTest.Says, ReadTest.parts, OldMesh.upTo]
  | geomnum => simp [ReadTest.check, ReadTest.Says, ReadTest.parts, OldMesh.upTo]
  | geomnumDest => simp [ReadTest.check, ReadTest.Says, ReadTest.parts, OldMesh.upTo]
  | table =>
    change checkTable _ = _ ↔ _ ∧ _
    unfold checkTable checkLodnum
    simp only [thenAssert_true, decide_eq_true_eq, OldMesh.upTo, ReadTest.parts, le_refl, if_true,
      (by decide : 3 ≤ 4)]
    generalize o.geoms.map (·.lodnum) = ns
    rcases ns with _ | ⟨a, _ | ⟨b, ns⟩⟩
    · simp
    · simp [thenAssert_true]
      omega
    · simp [thenAssert_true]
      omega
  | tableDest =>
    change checkTableDest _ = _ ↔ _ ∧ _
    unfold checkTableDest checkLodnum
    simp only [thenAssert_true, decide_eq_true_eq, OldMesh.upTo, ReadTest.parts, le_refl, if_true,
      (by decide : 3 ≤ 4)]
    generalize o.geoms.map (·.lodnum) = ns
    rcases ns with _ | ⟨a, _ | ⟨b, _ | ⟨c, ns⟩⟩⟩
    · simp
    · simp [thenAssert_true]
    · simp [thenAssert_true]
      omega
    · simp [thenAssert_true]
      omega
  | vertattribnum => simp [ReadTest.check, ReadTest.Says, ReadTest.parts, OldMesh.upTo]
  | vattrs =>
    change checkVattrs _ = _ ↔ _ ∧ _
    rw [checkVattrs_true]
    simp only [OldMesh.upTo, ReadTest.parts, le_refl, if_true, (by decide : 5 ≤ 6)]
  | vertformat => simp [ReadTest.check, ReadTest.Says, ReadTest.parts, OldMesh.upTo]
  | vertstride =>
    change checkStride _ = _ ↔ ∃ ns, _
    unfold checkStride
    simp only [OldMesh.upTo, ReadTest.parts, le_refl, if_true, (by decide : 6 ≤ 8)]
    constructor
    · intro h
      split at h
      · cases h
      next n hn =>
      simp only [Except.ok.injEq, decide_eq_true_eq] at h
      rw [h]
      exact sumLens_ok.1 hn
    · intro h
      rw [sumLens_ok.2 h]
      simp
  | vertnum => simp [ReadTest.check, ReadTest.Says, ReadTest.parts, OldMesh.upTo]
  | vertices =>
    change checkVertices _ = _ ↔ _
    unfold checkVertices
    simp only [OldMesh.upTo, ReadTest.parts, le_refl, if_true, (by decide : 7 ≤ 10), (by decide : 8 ≤ 10),
      (by decide : 9 ≤ 10), if_neg hz]
    have key := rndVal_quotient (n := (o.vertices.length : ℤ)) hz (small rfl) hb
    simp only [Except.ok.injEq, decide_eq_true_eq, ReadTest.Says]
    rw [eq_comm (b := o.vertnum * o.vertstride), ← key]
    push_cast
    exact eq_comm
  | indexnum => simp [ReadTest.check, ReadTest.Says, ReadTest.parts, OldMesh.upTo]
  | index =>
    change checkIndex _ = _ ↔ _ ∧ _
    unfold checkIndex
    simp only [OldMesh.upTo, ReadTest.parts, le_refl, if_true, (by decide : 11 ≤ 12), Except.ok.injEq,
      decide_eq_true_eq]
    omega
  | u2 =>
    simp [ReadTest.check, ReadTest.Says, ReadTest.parts, OldMesh.upTo, sameObject]
    omega
  | nodes =>
    change checkNodes _ = _ ↔ ∃ l, _
    unfold checkNodes
    simp only [OldMesh.upTo, ReadTest.parts, le_refl, if_true, (by decide : ¬ 15 ≤ 14), if_false, partLod_bare]
    rcases hp : partLod o.geoms 0 0 with e | l
    · obtain ⟨-, h2⟩ := partLod_error hp
      simp only [Except.map]
      constructor
      · intro h
        cases h
      · rintro ⟨l, h, -⟩
        exact absurd h (h2 l)
    · have hl := partLod_ok.1 hp
      simp only [Except.map, thenAssert_true, eqVec3_boxMin, eqVec3_boxMax, Except.ok.injEq, decide_eq_true_eq]
      constructor
      · rintro ⟨h1, h2, h3⟩
        exact ⟨l, hl, h1, h2, h3⟩
      · rintro ⟨l', h, h1, h2, h3⟩
        rw [partLod_ok.2 h] at hp
        cases hp
        exact ⟨h1, h2, h3⟩
  | nodesBundled =>
    change checkNodesBundled _ = _ ↔ ∃ l, _
    unfold checkNodesBundled
    simp only [OldMesh.upTo, ReadTest.parts, le_refl, if_true, (by decide : ¬ 15 ≤ 14), if_false, partLod_bare]
    rcases hp : partLod o.geoms 0 0 with e | l
    · obtain ⟨-, h2⟩ := partLod_error hp
      simp only [Except.map]
      constructor
      · intro h
        cases h
      · rintro ⟨l, h, -⟩
        exact absurd h (h2 l)
    · have hl := partLod_ok.1 hp
      simp only [Except.map, Except.ok.injEq, decide_eq_true_eq]
      constructor
      · exact fun h => ⟨l, hl, h⟩
      · rintro ⟨l', h, h1⟩
        rw [partLod_ok.2 h] at hp
        cases hp
        exact h1
  | nodesSkinned =>
    change checkRigs _ = _ ↔ ∀ g ∈ o.geoms, _
    unfold checkRigs
    simp only [OldMesh.upTo, ReadTest.parts, le_refl, if_true, (by decide : ¬ 15 ≤ 14), if_false, Except.ok.injEq,
      List.all_eq_true, List.mem_map, forall_exists_index, and_imp, forall_apply_eq_imp_iff₂, OldGeom.bare,
      decide_eq_true_eq]
    rfl
  | materials =>
    change checkMaterials _ = _ ↔ ∃ l m, _
    unfold checkMaterials
    simp only [OldMesh.upTo, ReadTest.parts, le_refl, if_true]
    rcases hp : partLod o.geoms 0 0 with e | l
    · obtain ⟨-, h2⟩ := partLod_error hp
      constructor
      · intro h
        cases h
      · rintro ⟨l, m, h, -⟩
        exact absurd h (h2 l)
    · have hl := partLod_ok.1 hp
      have hmem : OneMat l := by
        obtain ⟨g, h1, h2⟩ := hl
        exact hone g (List.mem_of_mem_head? h1) l (List.mem_of_mem_head? h2)
      simp only [thenAssert_true, decide_eq_true_eq]
      constructor
      · rintro ⟨h1, h2⟩
        obtain ⟨m, h3, h4⟩ := hmem h1
        rw [h3] at h2
        refine ⟨l, m, hl, h1, h3, ?_⟩
        change checkMaterial l m = _ at h2
        unfold checkMaterial at h2
        simp only [thenAssert_true, checkMap_true, decide_eq_true_eq, eqBound_iff, eqVec3_boxMin, eqVec3_boxMax]
          at h2
        obtain ⟨a1, a2, a3, a4, a5, a6, a7, a8, a9, a10, a11, a12, a13, a14, -⟩ := h2
        refine ⟨a1, a2, a3, a4, ?_, a7, a8, a9, a10, a11, a12, a13, a14⟩
        rcases hm : m.maps with _ | ⟨x, _ | ⟨y, ms⟩⟩
        · rw [hm] at a5
          cases a5
        · rw [hm] at a6
          cases a6
        · rw [hm] at a5 a6
          cases a5
          cases a6
          exact ⟨ms, rfl⟩
      · rintro ⟨l', m, h, h1, h2, h3⟩
        rw [partLod_ok.2 h] at hp
        cases hp
        obtain ⟨m', h4, h5⟩ := hmem h1
        rw [h2] at h4
        cases h4
        refine ⟨h1, ?_⟩
        rw [h2]
        change checkMaterial l m = _
        unfold checkMaterial
        simp only [thenAssert_true, checkMap_true, decide_eq_true_eq, eqBound_iff, eqVec3_boxMin, eqVec3_boxMax]
        obtain ⟨ms, hm⟩ := h3.maps
        refine ⟨h3.alphamode, h3.fxfile, h3.technique, h3.mapnum, by rw [← hm]; rfl, by rw [← hm]; rfl, h3.vstart,
          h3.istart, h3.inum, h3.vnum, h3.u4, h3.u5, h3.mmin, h3.mmax, ?_⟩
        unfold OldLod.polycount
        rw [h5, h3.inum]
        decide +kernel
  | materialsSkinned =>
    change checkKits _ = _ ↔ ∀ g ∈ o.geoms, _
    unfold checkKits
    rw [checkFirstMaps_true]
    simp only [OldMesh.upTo, ReadTest.parts, le_refl, if_true, List.mem_flatMap]
    constructor
    · exact fun h g hg l hl m hm => h m ⟨g, hg, l, hl, hm⟩
    · rintro h m ⟨g, hg, l, hl, hm⟩
      exact h g hg l hl m hm

/-- What the reader of a test raises, loading raises. -/
theorem readTest_error {pl : Plat} {file : Bytes} {k : Kind} {e : Err} {t : ReadTest}
    (fits : t.Fits k) (h : readParts (F := F64) pl t.kind t.parts file = .error e) :
    oldLoad (F := F64) pl k file = .error e := by
  rw [readParts_kind pl fits.1.symm fits.2.symm] at h
  have h2 := C133_load (F := F64) pl k file
  have h3 := readParts_raise t.parts_range.1 t.parts_range.2 h
  rcases hl : oldLoad (F := F64) pl k file with e' | o
  · rw [hl] at h2
    simp only at h2
    rw [h3] at h2
    cases h2
    rfl
  · rw [hl] at h2
    obtain ⟨r, h2⟩ := h2
    rw [h3] at h2
    cases h2

/-- **C168.** What a test raises: what opening the file raises, or what loading it raises, or the exception of an
assertion, where the mesh lacks what the assertion asks for. -/
theorem C168_raises {pl : Plat} {fs : FS} {path : Str} {file : Bytes} {k : Kind} {o : OldMesh F64} {t : ReadTest}
    (read : fs.read path = .ok file) (fits : t.Fits k) (loaded : oldLoad pl k file = .ok o) {e : Err}
    (raises : t.run pl fs path = .error e) :
    (t = .vertstride ∧ (e = .keyError ∨ e = .valueError) ∧ ∃ a ∈ o.vattrs, ∀ n, ¬ TypeLen a.vartype n) ∨
    (e = .indexError ∧ (
      (t = .vattrs ∧ o.vattrs.length < 9) ∨
      ((t = .nodes ∨ t = .nodesBundled ∨ t = .materials) ∧ ∀ l, ¬ FirstLod o l) ∨
      (t = .materials ∧ ∃ l m, FirstLod o l ∧ l.materials = [m] ∧ m.maps.length < 2) ∨
      (t = .materialsSkinned ∧ ∃ g ∈ o.geoms, ∃ l ∈ g.lods, ∃ m ∈ l.materials, m.maps = []))) := by
  obtain ⟨⟨hz, hb⟩, hone, hrun⟩ := readTest_loaded read fits loaded
  rw [hrun] at raises
  cases t with
  | header =>
    change thenAssert _ _ = _ at raises
    simp only [thenAssert_error] at raises
    cases raises.2.2.2.2
  | u1 => cases raises
  | geomnum => cases raises
  | geomnumDest => cases raises
  | table =>
    change checkTable _ = _ at raises
    unfold checkTable checkLodnum at raises
    rw [thenAssert_error, decide_eq_true_eq] at raises
    obtain ⟨⟨h1, h2⟩, h⟩ := raises
    split at h
    · next hn =>
      rw [List.getElem?_eq_none_iff] at hn
      omega
    · rw [thenAssert_error] at h
      cases h.2
  | tableDest =>
    change checkTableDest _ = _ at raises
    unfold checkTableDest checkLodnum at raises
    rw [thenAssert_error, decide_eq_true_eq] at raises
    obtain ⟨⟨h1, h2⟩, h⟩ := raises
    split at h
    · next hn =>
      rw [List.getElem?_eq_none_iff] at hn
      omega
    · rw [thenAssert_error] at h
      obtain ⟨-, h⟩ := h
      split at h
      · next hn =>
        rw [List.getElem?_eq_none_iff] at hn
        omega
      · rw [thenAssert_error] at h
        cases h.2
  | vertattribnum => cases raises
  | vattrs =>
    obtain ⟨rfl, h⟩ := checkVattrs_error raises
    exact .inr ⟨rfl, .inl ⟨rfl, h⟩⟩
  | vertformat => cases raises
  | vertstride =>
    change checkStride _ = _ at raises
    unfold checkStride at raises
    split at raises
    · next e' he =>
      cases raises
      exact .inl ⟨rfl, sumLens_error he⟩
    · cases raises
  | vertnum => cases raises
  | vertices =>
    change checkVertices _ = _ at raises
    unfold checkVertices at raises
    rw [if_neg (by simpa [OldMesh.upTo, ReadTest.parts] using hz)] at raises
    cases raises
  | indexnum => cases raises
  | index => cases raises
  | u2 => cases raises
  | nodes =>
    change checkNodes _ = _ at raises
    unfold checkNodes at raises
    simp only [OldMesh.upTo, ReadTest.parts, le_refl, if_true, (by decide : ¬ 15 ≤ 14), if_false, partLod_bare]
      at raises
    rcases hp : partLod o.geoms 0 0 with e' | l
    · rw [hp] at raises
      cases raises
      obtain ⟨rfl, h⟩ := partLod_error hp
      exact .inr ⟨rfl, .inr (.inl ⟨.inl rfl, h⟩)⟩
    · rw [hp] at raises
      simp only [Except.map, thenAssert_error] at raises
      cases raises.2.2
  | nodesBundled =>
    change checkNodesBundled _ = _ at raises
    unfold checkNodesBundled at raises
    simp only [OldMesh.upTo, ReadTest.parts, le_refl, if_true, (by decide : ¬ 15 ≤ 14), if_false, partLod_bare]
      at raises
    rcases hp : partLod o.geoms 0 0 with e' | l
    · rw [hp] at raises
      cases raises
      obtain ⟨rfl, h⟩ := partLod_error hp
      exact .inr ⟨rfl, .inr (.inl ⟨.inr (.inl rfl), h⟩)⟩
    · rw [hp] at raises
      cases raises
  | nodesSkinned => cases raises
  | materials =>
    change checkMaterials _ = _ at raises
    unfold checkMaterials at raises
    simp only [OldMesh.upTo, ReadTest.parts, le_refl, if_true] at raises
    rcases hp : partLod o.geoms 0 0 with e' | l
    · rw [hp] at raises
      cases raises
      obtain ⟨rfl, h⟩ := partLod_error hp
      exact .inr ⟨rfl, .inr (.inl ⟨.inr (.inr rfl), h⟩)⟩
    · have hl := partLod_ok.1 hp
      have hmem : OneMat l := by
        obtain ⟨g, h1, h2⟩ := hl
        exact hone g (List.mem_of_mem_head? h1) l (List.mem_of_mem_head? h2)
      rw [hp] at raises
      simp only [thenAssert_error, decide_eq_true_eq] at raises
      obtain ⟨h1, h2⟩ := raises
      obtain ⟨m, h3, -⟩ := hmem h1
      rw [h3] at h2
      change checkMaterial l m = _ at h2
      unfold checkMaterial at h2
      simp only [thenAssert_error] at h2
      have h4 := checkMap_error h2.2.2.2.2
      rcases h4 with ⟨rfl, h4⟩ | h4
      · exact .inr ⟨rfl, .inr (.inr (.inl ⟨rfl, l, m, hl, h3, by omega⟩))⟩
      · rcases checkMap_error h4 with ⟨rfl, h5⟩ | h5
        · exact .inr ⟨rfl, .inr (.inr (.inl ⟨rfl, l, m, hl, h3, by omega⟩))⟩
        · simp only [thenAssert_error] at h5
          cases h5.2.2.2.2.2.2.2.2
  | materialsSkinned =>
    obtain ⟨rfl, m, hm, h⟩ := checkFirstMaps_error raises
    simp only [OldMesh.upTo, ReadTest.parts, le_refl, if_true, List.mem_flatMap] at hm
    obtain ⟨g, hg, l, hl, hm⟩ := hm
    exact .inr ⟨rfl, .inr (.inr (.inr ⟨rfl, g, hg, l, hl, m, hm, h⟩))⟩

/-- **C168.** A test on a file that cannot be opened ends with the exception of opening it; one whose reader raises
ends with the exception that loading the file raises. -/
theorem C168_unloaded {pl : Plat} {fs : FS} {path : Str} (t : ReadTest) :
    (∀ e, fs.read path = .error e → t.run pl fs path = .error e) ∧
    ∀ file e k, fs.read path = .ok file → t.Fits k → readParts (F := F64) pl t.kind t.parts file = .error e →
      t.run pl fs path = .error e ∧ oldLoad (F := F64) pl k file = .error e := by
  unfold ReadTest.run readTest
  refine ⟨fun e h => by rw [h], fun file e k h fits he => ⟨?_, readTest_error fits he⟩⟩
  rw [h]
  simp only
  rw [he]

theorem TypeLen.det {t : Int} {m n : Nat} (h : TypeLen t m) (h' : TypeLen t n) : m = n := by
  cases h <;> cases h' <;> rfl

theorem typeLens_det : ∀ {l : List VAttr} {ms ns : List Nat},
    List.Forall₂ (fun a n => TypeLen a.vartype n) l ms → List.Forall₂ (fun a n => TypeLen a.vartype n) l ns → ms = ns
  | [], _, _, .nil, .nil => rfl
  | _ :: _, _, _, .cons h1 h2, .cons h3 h4 => by rw [h1.det h3, typeLens_det h2 h4]

theorem readTable_lens : List.Forall₂ (fun a n => TypeLen a.vartype n) readTable [3, 3, 1, 2, 2, 2, 2, 3, 0] :=
  .cons .float3 (.cons .float3 (.cons .color (.cons .float2 (.cons .float2 (.cons .float2 (.cons .float2
    (.cons .float3 (.cons .unused .nil))))))))

/-- **C168.** What all the tests of the static sample together determine: one lod of one material, the attributes,
the sizes of vertices and index. -/
theorem C168_box {pl : Plat} {fs : FS} {path : Str} {file : Bytes} {k : Kind} {o : OldMesh F64}
    (read : fs.read path = .ok file) (flags : k.isSkinned = false ∧ k.isBundled = false)
    (loaded : oldLoad pl k file = .ok o) :
    (∀ t ∈ ReadTest.ofBox, t.run pl fs path = .ok true) ↔
      o.head.u1 = 0 ∧ (o.head.version = 6 ∨ o.head.version = 10 ∨ o.head.version = 11) ∧ o.head.u3 = 0 ∧
      o.head.u4 = 0 ∧ o.head.u5 = 0 ∧ o.u1 = 0 ∧ o.u2 = 8 ∧ o.geomnum = 1 ∧
      o.vertattribnum = 9 ∧ o.vattrs = readTable ∧ o.vertformat = 4 ∧ o.vertstride = 72 ∧ o.vertnum = 25 ∧
      o.vertices.length = 450 ∧ o.indexnum = 36 ∧ o.index.length = 36 ∧ o.geoms.map (·.lodnum) = [1] ∧
      ∃ l m, FirstLod o l ∧ l.min.Is (-1 / 2) 0 (-1 / 2) ∧ l.max.Is (1 / 2) 1 (1 / 2) ∧ l.nodenum = some 1 ∧
        l.matnum = 1 ∧ l.materials = [m] ∧ BoxMaterial m := by
  have fits : ∀ t ∈ ReadTest.ofBox, t.Fits k := by
    intro t ht
    have : t.kind.isSkinned = false ∧ t.kind.isBundled = false := by
      revert t
      decide
    exact ⟨flags.1.trans this.1.symm, flags.2.trans this.2.symm⟩
  have key : ∀ t ∈ ReadTest.ofBox, t ≠ .vertices → (t.run pl fs path = .ok true ↔ t.Says o) := fun t ht hv =>
    C168_passes read (fits t ht) loaded (fun h => absurd h hv)
  constructor
  · intro h
    have told : ∀ t ∈ ReadTest.ofBox, t ≠ .vertices → t.Says o := fun t ht hv => (key t ht hv).1 (h t ht)
    obtain ⟨a1, a2, a3, a4, a5⟩ := told .header (by decide) (by decide)
    have b1 : o.u1 = 0 := told .u1 (by decide) (by decide)
    have b2 : o.u2 = 8 := told .u2 (by decide) (by decide)
    have b3 : o.geomnum = 1 := told .geomnum (by decide) (by decide)
    have b4 : o.vertattribnum = 9 := told .vertattribnum (by decide) (by decide)
    obtain ⟨c1, c2⟩ := told .vattrs (by decide) (by decide)
    have b5 : o.vertformat = 4 := told .vertformat (by decide) (by decide)
    obtain ⟨ns, d1, d2⟩ := told .vertstride (by decide) (by decide)
    have b6 : o.vertnum = 25 := told .vertnum (by decide) (by decide)
    have b7 : o.indexnum = 36 := told .indexnum (by decide) (by decide)
    obtain ⟨b8, -⟩ := told .index (by decide) (by decide)
    obtain ⟨-, b9⟩ := told .table (by decide) (by decide)
    obtain ⟨l, e1, e2, e3, e4⟩ := told .nodes (by decide) (by decide)
    obtain ⟨l', m, f1, f2, f3, f4⟩ := told .materials (by decide) (by decide)
    have ll : l' = l := by
      obtain ⟨g, g1, g2⟩ := e1
      obtain ⟨g', g3, g4⟩ := f1
      rw [g1] at g3
      cases g3
      rw [g2] at g4
      cases g4
      rfl
    subst ll
    have ht : o.vattrs = readTable := (c1.eq_of_length (by
      rw [b4] at c2
      have : readTable.length = 9 := rfl
      omega)).symm
    have hs : o.vertstride = 72 := by
      rw [ht] at d1
      rw [d2, typeLens_det d1 readTable_lens]
      rfl
    have hv := (C168_passes read (fits .vertices (by decide)) loaded (fun _ => by rw [b6, hs]; decide)).1
      (h .vertices (by decide))
    change (o.vertices.length : Int) * o.vertformat = o.vertnum * o.vertstride at hv
    rw [b5, b6, hs] at hv
    exact ⟨a1, a2, a3, a4, a5, b1, b2, b3, b4, ht, b5, hs, b6, by omega, b7, b8, b9, l', m, e1, e2, e3, e4, f2, f3, f4⟩
  · rintro ⟨a1, a2, a3, a4, a5, b1, b2, b3, b4, ht, b5, hs, b6, b10, b7, b8, b9, l, m, e1, e2, e3, e4, f2, f3, f4⟩
    intro t hm
    refine (C168_passes read (fits t hm) loaded (fun _ => by rw [b6, hs]; decide)).2 ?_
    simp only [ReadTest.ofBox, List.mem_cons, List.not_mem_nil, or_false] at hm
    rcases hm with rfl | rfl | rfl | rfl | rfl | rfl | rfl | rfl | rfl | rfl | rfl | rfl | rfl | rfl | rfl
    · exact ⟨a1, a2, a3, a4, a5⟩
    · exact b1
    · exact b3
    · exact ⟨b3, b9⟩
    · exact b4
    · change readTable <+: o.vattrs ∧ (o.vattrs.length : Int) = o.vertattribnum
      rw [ht, b4]
      exact ⟨List.prefix_refl _, rfl⟩
    · exact b5
    · exact ⟨[3, 3, 1, 2, 2, 2, 2, 3, 0], ht ▸ readTable_lens, hs⟩
    · exact b6
    · change (o.vertices.length : Int) * o.vertformat = o.vertnum * o.vertstride
      rw [b10, b5, b6, hs]
      rfl
    · exact b7
    · exact ⟨b8, b7⟩
    · exact b2
    · exact ⟨l, e1, e2, e3, e4⟩
    · exact ⟨l, m, e1, f2, f3, f4⟩

/-- **C168.** No test looks at a coordinate or at a number of the index: where only those differ, the results are the
same. -/
theorem C168_blind {pl : Plat} {fs fs' : FS} {path path' : Str} {file file' : Bytes} {k : Kind} {o : OldMesh F64}
    {vs : List F64} {is : List Int} {t : ReadTest}
    (read : fs.read path = .ok file) (read' : fs'.read path' = .ok file') (fits : t.Fits k)
    (loaded : oldLoad pl k file = .ok o) (loaded' : oldLoad pl k file' = .ok { o with vertices := vs, index := is })
    (lengths : vs.length = o.vertices.length ∧ is.length = o.index.length) :
    t.run pl fs' path' = t.run pl fs path := by
  rw [(readTest_loaded read fits loaded).2.2, (readTest_loaded read' fits loaded').2.2]
  cases t with
  | vertices =>
    change checkVertices _ = checkVertices _
    simp [checkVertices, OldMesh.upTo, ReadTest.parts, lengths.1]
  | index =>
    change checkIndex _ = checkIndex _
    simp [checkIndex, OldMesh.upTo, ReadTest.parts, lengths.2]
  | _ => rfl

/-- **C168.** The tests that load pass exactly if the file loads and has the extension of their kind. -/
theorem C168_load {pl : Plat} {fs : FS} {path : Str} :
    (loadTest pl fs path (·.isStatic) = .ok true ↔
      (∃ o, oldLoadPath (F := F64) pl fs path = .ok o) ∧ ∃ e, ExtOf path e ∧ SameName e ".staticmesh".toList) ∧
    (loadTest pl fs path (·.isBundled) = .ok true ↔
      (∃ o, oldLoadPath (F := F64) pl fs path = .ok o) ∧ ∃ e, ExtOf path e ∧ SameName e ".bundledmesh".toList) ∧
    (loadTest pl fs path (·.isSkinned) = .ok true ↔
      (∃ o, oldLoadPath (F := F64) pl fs path = .ok o) ∧ ∃ e, ExtOf path e ∧ SameName e ".skinnedmesh".toList) ∧
    ∀ flag e, loadTest pl fs path flag = .error e ↔ oldLoadPath (F := F64) pl fs path = .error e := by
  unfold loadTest
  rcases h : oldLoadPath (F := F64) pl fs path with e | o
  · simp
  · obtain ⟨h1, h2, h3, -⟩ := C106_kind_of_extension pl fs path o h
    simp only [Except.ok.injEq, h1, h2, h3, exists_eq', true_and, reduceCtorEq, implies_true, and_true]

/-- **C168.** The tests of the samples never pass: the class they ask for is not there. -/
theorem C168_samples (pl : Plat) (fs : FS) (names : List Str) (path : Str) :
    (sampleReadTest fs path = .error .attributeError ∨ ∃ e, fs.read path = .error e ∧ sampleReadTest fs path = .error e) ∧
    (sampleLoadTest fs path = .error .nameError ∨ ∃ e, fs.read path = .error e ∧ sampleLoadTest fs path = .error e) ∧
    ∃ e, samplesTest pl fs names path = .error e := by
  unfold sampleReadTest sampleLoadTest loadSample samplesTest
  refine ⟨?_, ?_, ?_⟩
  · rcases fs.read path with e | b
    · exact .inr ⟨e, rfl, rfl⟩
    · exact .inl rfl
  · rcases fs.read path with e | b
    · exact .inr ⟨e, rfl, rfl⟩
    · exact .inl rfl
  · rcases oldLoadSamples (F := F64) pl fs names path with e | o
    · exact ⟨e, rfl⟩
    · rcases h : partLod o.geoms 0 0 with e | l
      · exact ⟨e, by simp only [h]⟩
      · exact ⟨.attributeError, by simp only [h]⟩

theorem atIndex_true {α : Type} {l : List α} {i : Nat} {f : α → Except Err Bool} :
    atIndex l i f = .ok true ↔ ∃ a, l[i]? = some a ∧ f a = .ok true := by
  unfold atIndex
  rcases l[i]? with _ | a <;> simp

theorem atIndex_error {α : Type} {l : List α} {i : Nat} {f : α → Except Err Bool} {e : Err} :
    atIndex l i f = .error e ↔ (Err.indexError = e ∧ l[i]? = none) ∨ ∃ a, l[i]? = some a ∧ f a = .error e := by
  unfold atIndex
  rcases l[i]? with _ | a <;> simp

theorem one_of_get {α : Type} {l : List α} {a : α} (h : l[0]? = some a) (n : l.length = 1) : l = [a] := by
  rcases l with _ | ⟨x, _ | ⟨y, l⟩⟩
  · cases n
  · cases h
    rfl
  · cases n

theorem three_of_get {α : Type} {l : List α} {a b c : α} (h : l[0]? = some a) (h' : l[1]? = some b)
    (h'' : l[2]? = some c) (n : l.length = 3) : l = [a, b, c] := by
  rcases l with _ | ⟨x, _ | ⟨y, _ | ⟨z, _ | ⟨w, l⟩⟩⟩⟩ <;> cases n
  cases h
  cases h'
  cases h''
  rfl

/-- **C168.** The collision tests on a file that loads: none of them raises, and this is when they pass. -/
theorem C168_collision {pl : Plat} {fs : FS} {path : Str} {m : ColMesh F64 ColFace}
    (loaded : loadColPath pl fs path = .ok m) :
    colReadTest pl fs path = .ok true ∧
    colReadHeaderTest pl fs path = .ok (decide (m.u1 = 0 ∧ m.version = 10)) ∧
    (∃ b, colReadGeomsTest pl fs path = .ok b) ∧
    (colReadGeomsTest pl fs path = .ok true ↔
      m.frameSize pl + m.dataSize pl m.version = 1511 ∧ BoxCollision m) := by
  refine ⟨by unfold colReadTest; rw [loaded], ?_⟩
  obtain ⟨file, hr, hl⟩ := loadColPath_ok loaded
  have hsize : ∀ rest, readCol pl file = .ok (m, rest) →
      file.length - rest.length = m.frameSize pl + m.dataSize pl m.version ∧ ColWF m := by
    intro rest h
    obtain ⟨r, h1, h2, h3, rfl⟩ := (readCol_parses (F := F64) (pl := pl) file _ _).1 h
    constructor
    · rw [h3, List.length_append, Nat.add_sub_cancel, ColMesh.layout_length, ColMesh.map_frameSize,
        ColMesh.map_dataSize]
      rfl
    · exact h1.map _ _
  unfold loadCol at hl
  split at hl
  · next m' rest h =>
    cases hl
    obtain ⟨h1, h2⟩ := hsize rest h
    refine ⟨?_, ?_⟩
    · unfold readCol at h
      simp only [P.bind_ok] at h
      obtain ⟨u1, s1, e1, v, s2, e2, n, s3, e3, l, s4, e4, e5⟩ := h
      cases e5
      unfold colReadHeaderTest readColHeader
      rw [hr]
      simp only [P.bind_run, e1, e2]
      rcases Classical.em (u1 = 0) with hu | hu <;> simp [thenAssert, hu, pure, P.pure]
    · unfold colReadGeomsTest
      rw [hr]
      simp only [h, h1]
      constructor
      · rcases hx : thenAssert (decide (m.frameSize pl + m.dataSize pl m.version = 1511)) _ with e | b
        · exfalso
          simp only [thenAssert_error, atIndex_error, decide_eq_true_eq] at hx
          obtain ⟨-, ⟨g1, g2⟩, hx⟩ := hx
          have c1 := h2.count
          rcases hx with ⟨-, hx⟩ | ⟨g, hg, hsn, hx⟩
          · rw [List.getElem?_eq_none_iff] at hx
            omega
          have c2 := h2.geoms g (List.mem_of_getElem? hg)
          rcases hx with ⟨-, hx⟩ | ⟨s, hs, hln, hx⟩
          · rw [List.getElem?_eq_none_iff, c2.count] at hx
            omega
          have c3 := (c2.subgeoms s (List.mem_of_getElem? hs)).count
          rcases hx with ⟨-, hx⟩ | ⟨a, -, ⟨-, hx⟩ | ⟨b, -, ⟨-, hx⟩ | ⟨c, -, -, -, -, -, -, hx⟩⟩⟩
          · rw [List.getElem?_eq_none_iff] at hx
            omega
          · rw [List.getElem?_eq_none_iff] at hx
            omega
          · rw [List.getElem?_eq_none_iff] at hx
            omega
          · cases hx
        · exact ⟨b, rfl⟩
      · simp only [thenAssert_true, atIndex_true, decide_eq_true_eq, Except.ok.injEq]
        constructor
        · rintro ⟨t1, ⟨g1, g2⟩, ⟨sn, ss⟩, hg, rfl, ⟨ln, ls⟩, hs, rfl, a, ha, b, hb, c, hc, i1, i2, i3, i4, i5, i6⟩
          have c1 := h2.count
          have c2 := h2.geoms _ (List.mem_of_getElem? hg)
          have c3 := c2.count
          have c4 := (c2.subgeoms _ (List.mem_of_getElem? hs)).count
          refine ⟨t1, g2, a, b, c, ?_, i1, i2, i3, i4, i5, i6⟩
          have d1 : ss = _ := one_of_get hs c3
          have d2 : ls = _ := three_of_get ha hb hc c4
          rw [one_of_get hg (by omega), d1, d2]
        · rintro ⟨t1, g2, a, b, c, hg, i1, i2, i3, i4, i5, i6⟩
          refine ⟨t1, ⟨by rw [hg, g2]; rfl, g2⟩, _, by rw [hg]; rfl, rfl, _, rfl, rfl, a, rfl, b, rfl, c, rfl,
            i1, i2, i3, i4, i5, i6⟩
  · cases hl

/-! ## Witnesses -/

/-- The sample with the attributes and the sizes that the tests ask for; every coordinate is 0. -/
def readBox : Bytes :=
  match oldLoad (F := F64) win staticKind evilBox with
  | .error _ => []
  | .ok o => (oldSave win { o with
      vertattribnum := 9, vattrs := readTable, vertstride := 72, vertices := List.replicate 450 F64.zero }).bytes

/-- The tests of the static sample that pass on the sample: all but those of the attributes, of which the sample has
ten. -/
example : (ReadTest.ofBox.filter fun t => t.run win (colFileFS evilBox) "d/f".toList == .ok true) =
    ReadTest.ofBox.filter fun t => decide (t ≠ .vertattribnum ∧ t ≠ .vattrs) := by decide +kernel

/-- All of them pass on the box whose corners are one point. -/
example : (colFileFS readBox).read "d/f".toList = .ok readBox ∧
    (oldLoad (F := F64) win staticKind readBox).toOption.map (fun o => o.vertices.all fun x => decide (x = F64.zero)) = some true ∧
    ReadTest.ofBox.all (fun t => t.run win (colFileFS readBox) "d/f".toList == .ok true) = true := by decide +kernel

/-- The sample with another table of attributes. -/
def attrBox (as : List VAttr) : Bytes :=
  match oldLoad (F := F64) win staticKind evilBox with
  | .error _ => []
  | .ok o => (oldSave win { o with vertattribnum := as.length, vattrs := as }).bytes

/-- Files that load, and on which a test raises: eight of the nine attributes; an attribute of four numbers, and one
of a type that is none. -/
example :
    (oldLoad (F := F64) win staticKind (attrBox (readTable.take 8))).toOption.isSome = true ∧
    ReadTest.vattrs.run win (colFileFS (attrBox (readTable.take 8))) "d/f".toList = .error .indexError ∧
    (oldLoad (F := F64) win staticKind (attrBox [⟨0, 0, 3, 0⟩])).toOption.isSome = true ∧
    ReadTest.vertstride.run win (colFileFS (attrBox [⟨0, 0, 3, 0⟩])) "d/f".toList = .error .keyError ∧
    (oldLoad (F := F64) win staticKind (attrBox [⟨0, 0, 99, 0⟩])).toOption.isSome = true ∧
    ReadTest.vertstride.run win (colFileFS (attrBox [⟨0, 0, 99, 0⟩])) "d/f".toList = .error .valueError := by
  decide +kernel

/-- A file that loads and on which the test of the vertices fails: a stride of six, a format of four. -/
def strideBox : Bytes :=
  match oldLoad (F := F64) win staticKind evilBox with
  | .error _ => []
  | .ok o => (oldSave win { o with vertstride := 6, vertnum := 1, vertices := [F64.zero] }).bytes

example : (oldLoad (F := F64) win staticKind strideBox).toOption.map (fun o =>
      (o.vertices.length, o.vertformat, o.vertnum, o.vertstride)) = some (1, 4, 1, 6) ∧
    ReadTest.vertices.run win (colFileFS strideBox) "d/f".toList = .ok false := by decide +kernel

/-- A file cut in its index: the tests of what comes before still pass, and the others raise what loading raises. -/
example : let fs := colFileFS (evilBox.take 2150)
    ReadTest.vertices.run win fs "d/f".toList = .ok true ∧
    ReadTest.index.run win fs "d/f".toList = .error .structError ∧
    ReadTest.materials.run win fs "d/f".toList = .error .structError ∧
    (oldLoad (F := F64) win staticKind (evilBox.take 2150)).toOption = none := by decide +kernel

/-- The collision tests pass on the collision mesh of the sample, also with a byte behind it. -/
example : let fs := colFileFS (evilBoxCol ++ [7])
    (loadColPath (F := F64) win fs "d/f".toList).toOption.isSome = true ∧
    colReadHeaderTest win fs "d/f".toList = .ok true ∧ colReadGeomsTest win fs "d/f".toList = .ok true := by
  decide +kernel

end Bf2
