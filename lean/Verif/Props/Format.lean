import Verif.QuietLemmas
import Verif.StringLemmas
import Verif.Sample

/-!
# Properties of the file format: C01 - C13, C52

`W` is `BitVec 32`: loading as `Mesh W` gives the 32-bit words stored at the float positions of the
file, loading as `Mesh F64` gives the Python floats.
-/

namespace Bf2

/-- Every word at a float position of the file, when the file is read as a mesh of kind `k`. -/
def NoSignalling (pl : Plat) (k : Kind) (file : Bytes) : Prop :=
  ∀ r : Mesh W, load pl k file = .ok r → ∀ w ∈ r.floats, ¬ SNaN w

/-! ## C01, C12 -/

/-- **C12.** Load and export: the output has the length of the file, loads to the same words except
that the signalling NaNs are quiet, differs from the file in one byte per signalling NaN, and only
by having bit 6 of that byte set. -/
theorem C12_signalling_nans_quieted (pl : Plat) (k : Kind) (file : Bytes) (m : Mesh F64) (r : Mesh W)
    (hm : load pl k file = .ok m) (hr : load pl k file = .ok r) (h1 : m.indexnum ≠ 1) :
    ∃ out, exportMesh pl m = ⟨out, none⟩ ∧ load pl k out = .ok (r.map quieted) ∧
      List.Forall₂ (fun x y : UInt8 => y = x ∨ y = x ||| 0x40) file out ∧
      differing file out = r.floats.countP (fun w => decide (SNaN w)) := by
  obtain ⟨r', hr', rfl⟩ := load_ok_map.1 hm
  rw [hr] at hr'
  obtain rfl : r = r' := by injection hr'
  obtain ⟨hw, hk, hf⟩ := load_raw_iff.1 hr
  have hq : (r.map unpackF).map packF = r.map quieted := by
    rw [Mesh.map_map]; exact congrArg (fun f => r.map f) (funext packF_unpackF)
  obtain ⟨l, hl⟩ : ∃ l, r.index = .many l := by
    have := hw.index
    cases hi : r.index with
    | one a => rw [hi] at this; exact absurd this h1
    | many l => exact ⟨l, rfl⟩
  have he : exportMesh pl (r.map (FCodec.unpack (F := F64))) = fileBytes pl (r.map quieted) := by
    rw [exportMesh_map]
    show exportMesh pl ((r.map unpackF).map packF) = _
    rw [hq]
    exact exportMesh_many (l := l) hl
  obtain ⟨e1, e2⟩ := fileBytes_near pl hw
  have e3 := e2 (by rw [hf])
  have hn : (fileBytes pl (r.map quieted)).err = none := by rw [← e1, hf]
  have hx : fileBytes pl (r.map quieted) = ⟨(fileBytes pl (r.map quieted)).bytes, none⟩ :=
    Out.ext' rfl hn
  refine ⟨(fileBytes pl (r.map quieted)).bytes, he.trans hx, ?_, ?_, ?_⟩
  · exact load_raw_iff.2 ⟨hw.map _, hk, hx⟩
  · have := e3.bytes; rw [hf] at this; exact this
  · have := e3.diff; rw [hf] at this; exact this

/-- **C01.** Loading and exporting without edits writes the bytes that were read. -/
theorem C01_unmodified_export_identical (pl : Plat) (k : Kind) (file : Bytes) (m : Mesh F64)
    (hm : load pl k file = .ok m) (h1 : m.indexnum ≠ 1) (hs : NoSignalling pl k file) :
    exportMesh pl m = ⟨file, none⟩ := by
  obtain ⟨r, hr, -⟩ := load_ok_map.1 hm
  obtain ⟨out, h2, h3, -⟩ := C12_signalling_nans_quieted pl k file m r hm hr h1
  have hq : r.map quieted = r := by
    conv_rhs => rw [← Mesh.map_id r]
    exact Mesh.map_congr fun w hw => quieted_of_not (hs r hr w hw)
  rw [hq] at h3
  obtain ⟨-, -, hf⟩ := load_raw_iff.1 hr
  obtain ⟨-, -, hf'⟩ := load_raw_iff.1 h3
  rw [hf] at hf'
  obtain rfl : file = out := by injection hf'
  exact h2

/-- The real sample file meets the hypotheses of C01 (and is returned unchanged). -/
example : (load (F := F64) win staticKind evilBox).toOption.map
      (fun m => (m.indexnum, exportMesh win m)) = some (36, ⟨evilBox, none⟩) ∧
    (load (F := W) win staticKind evilBox).toOption.map
      (fun r => r.floats.all fun w => decide (¬ SNaN w)) = some true := by
  decide +kernel

/-- A file with two signalling NaNs among its vertex words. -/
def tinyS : Mesh W :=
  tinyOf staticKind 3 [0, 0, 0, 0x7f800001, 0, 0xffbfffff, 0, 0x40000000, 0x7fc00001] 3
    (.many [0, 1, 2])

/-- C12 is not vacuous, and C01 does need its hypothesis: this file loads and comes back with two
bytes changed. -/
theorem C12_example : ∃ m : Mesh F64, load win staticKind (exportMesh win tinyS).bytes = .ok m ∧
    m.indexnum = 3 ∧ exportMesh win m ≠ exportMesh win tinyS ∧
    differing (exportMesh win tinyS).bytes (exportMesh win m).bytes = 2 := by
  refine ⟨tinyS.map unpackF, ?_⟩
  decide +kernel

/-! ## C02, C03 -/

/-- **C02.** Reloading what was written gives the mesh with every float rounded to binary32
(`unpackF ∘ packF`, see C51 for what that means). -/
theorem C02_reload_of_export (pl : Plat) (m : Mesh F64) (bs : Bytes) (hw : MeshWF m)
    (he : exportMesh pl m = ⟨bs, none⟩) :
    load pl m.kind bs = .ok (m.map fun x => unpackF (packF x)) := by
  rw [exportMesh_map] at he
  have hl : ∃ l, m.index = .many l := by
    cases hi : m.index with
    | many l => exact ⟨l, rfl⟩
    | one a =>
      exfalso
      have : (exportMesh pl (m.map (FCodec.pack (F := F64)))).err = none := by rw [he]
      have h2 : (exportIndex pl m.index).err = none := by
        simp only [exportMesh, all_cons_err] at this
        exact this.2.2.2.2.2.2.2.2.2.2.2.1
      rw [hi] at h2
      simp [exportIndex] at h2
  obtain ⟨l, hl⟩ := hl
  rw [exportMesh_many (m := m.map FCodec.pack) (l := l) hl] at he
  refine load_ok_map.2 ⟨m.map packF, load_raw_iff.2 ⟨hw.map _, rfl, he⟩, ?_⟩
  rw [Mesh.map_map]; rfl

/-- **C03.** Export, reload, export: the second export writes the bytes of the first. -/
theorem C03_export_fixpoint (pl : Plat) (m : Mesh F64) (bs : Bytes) (hw : MeshWF m)
    (he : exportMesh pl m = ⟨bs, none⟩) :
    ∃ m' : Mesh F64, load pl m.kind bs = .ok m' ∧ exportMesh pl m' = ⟨bs, none⟩ := by
  refine ⟨_, C02_reload_of_export pl m bs hw he, ?_⟩
  rw [exportMesh_map, Mesh.map_map]
  rw [exportMesh_map] at he
  rw [← he]
  exact congrArg (fun f => exportMesh pl (m.map f)) (funext packF_unpackF_packF)

/-- A well-formed mesh holding a double that is not a binary32 value (0.1) and one too large for
binary32 (1e300): it is exported, so C02 and C03 apply, and the reloaded mesh differs. -/
def tinyD : Mesh F64 :=
  { tiny.map unpackF with
    vertices := [F64.zero, F64.mk' false 0x3fb999999999999a, F64.mk' false 0x7e37e43c8800759c,
      F64.zero, F64.zero, F64.zero, F64.zero, F64.zero, F64.zero] }

theorem tinyD_wf : MeshWF tinyD where
  geoms := rfl
  geom := by
    intro g hg
    simp only [tinyD, tiny, tinyOf, Mesh.map, List.map_cons, List.map_nil, List.mem_singleton] at hg
    subst hg
    refine ⟨rfl, ?_, ?_⟩
    · intro l hl
      simp only [Geom.map, List.map_cons, List.map_nil, List.mem_singleton] at hl
      subst hl
      exact ⟨by decide, rfl, by simp [Lod.map], fun _ => rfl, rfl, fun h => by cases h⟩
    · intro l hl
      simp only [Geom.map, List.map_cons, List.map_nil, List.mem_singleton] at hl
      subst hl
      refine ⟨rfl, ?_⟩
      intro x hx
      simp only [Lod.map, List.map_cons, List.map_nil, List.mem_singleton] at hx
      subst hx
      exact ⟨rfl, rfl, rfl, rfl⟩
  vattrs := rfl
  vertformat := by decide
  vertices := by decide +kernel
  not_one := by decide
  index := ⟨by decide, by decide, rfl⟩
  u2 := by decide

example : (exportMesh win tinyD).err = none ∧ (exportMesh linux tinyD).err = none ∧
    (tinyD.map fun x => unpackF (packF x)) ≠ tinyD := by decide +kernel

/-! ## C04, C05 -/

variable {F : Type} [FCodec F]

/-- **C04.** A loadable file followed by anything is rejected with `AttributeError`. -/
theorem C04_trailing_bytes_rejected (pl : Plat) (k : Kind) (file suffix : Bytes) (m : Mesh F)
    (hm : load pl k file = .ok m) (hs : suffix ≠ []) :
    load (F := F) pl k (file ++ suffix) = .error .attributeError := by
  obtain ⟨r, hr, rfl⟩ := load_ok_map.1 hm
  obtain ⟨hw, hk, hf⟩ := load_raw_iff.1 hr
  have := (loadBody_inv pl k).complete suffix ⟨hw, hk⟩ hf
  rw [load_map]
  unfold load
  rw [this]
  cases suffix with
  | nil => exact absurd rfl hs
  | cons a s => rfl

/-- **C05.** Every proper prefix of a loadable file is rejected, with `struct.error`. -/
theorem C05_truncation_rejected (pl : Plat) (k : Kind) (part tail : Bytes) (m : Mesh F)
    (hm : load pl k (part ++ tail) = .ok m) (ht : tail ≠ []) :
    load (F := F) pl k part = .error .structError := by
  rcases Strict.loadBody (F := F) pl k (part ++ tail) m [] part (load_ok_iff.1 hm)
    (List.prefix_append _ _) with ⟨r', h1, h2⟩ | h
  · obtain rfl := List.prefix_nil.1 h2
    have := C04_trailing_bytes_rejected pl k part tail m (load_ok_iff.2 h1) ht
    rw [hm] at this
    cases this
  · exact load_error h

/-- Cutting the sample file. -/
example : (load (F := W) win staticKind (evilBox.take 2000 ++ evilBox.drop 2000)).isOk ∧
    evilBox.drop 2000 ≠ [] := by decide +kernel

/-! ## C06, C07, C08 -/

/-- **C06.** Collections have the length their counts announce. -/
theorem C06_counts_agree (pl : Plat) (k : Kind) (file : Bytes) (m : Mesh F)
    (hm : load pl k file = .ok m) :
    m.geoms.length = m.geomnum.toNat ∧ m.vattrs.length = m.vertattribnum.toNat ∧
    (m.vertices.length : Int) = m.announced ∧
    (m.index.elems.length : Int) = m.indexnum ∧
    ∀ g ∈ m.geoms, g.lods.length = g.lodnum.toNat ∧
      ∀ l ∈ g.lods, l.materials.length = l.matnum.toNat ∧ l.rigs.length = l.rignum.toNat ∧
        (k.isSkinned = false → k.isBundled = false → l.nodes.length = l.nodenum.toNat) ∧
        (∀ r ∈ l.rigs, r.bones.length = r.bonenum.toNat) ∧
        ∀ x ∈ l.materials, x.maps.length = x.mapnum.toNat := by
  obtain ⟨r, hr, rfl⟩ := load_ok_map.1 hm
  obtain ⟨hw, rfl, -⟩ := load_raw_iff.1 hr
  have hw := hw.map (FCodec.unpack (F := F))
  refine ⟨hw.geoms, hw.vattrs, hw.vertices, ?_, ?_⟩
  · have := hw.index
    cases hi : (r.map (FCodec.unpack (F := F))).index with
    | one a => rw [hi] at this; simpa [OneOrMany.elems] using this.symm
    | many l =>
      rw [hi] at this
      obtain ⟨h1, -, h3⟩ := this
      simp only [OneOrMany.elems, h3]
      omega
  · intro g hg
    have hg' := hw.geom g hg
    refine ⟨hg'.lods, fun l hl => ?_⟩
    have h1 := hg'.nodes l hl
    have h2 := hg'.mats l hl
    refine ⟨h2.materials, h1.rigs, fun a b => ?_, h1.bones, fun x hx => (h2.each x hx).maps⟩
    have := h1.nodes
    rw [show (r.map (FCodec.unpack (F := F))).kind = r.kind from rfl, a, b] at this
    simpa using this

/-- Every loaded mesh is well-formed, so the theorems about well-formed meshes apply to it. -/
theorem C06_loaded_wf (pl : Plat) (k : Kind) (file : Bytes) (m : Mesh F)
    (hm : load pl k file = .ok m) : MeshWF m ∧ m.kind = k := by
  obtain ⟨r, hr, rfl⟩ := load_ok_map.1 hm
  obtain ⟨hw, rfl, -⟩ := load_raw_iff.1 hr
  exact ⟨hw.map _, rfl⟩

/-- **C07.** Every integer of a loaded mesh is in the range of its field. -/
theorem C07_integers_in_range (pl : Plat) (k : Kind) (file : Bytes) (m : Mesh F)
    (hm : load pl k file = .ok m) : InRange pl m := by
  obtain ⟨r, hr, rfl⟩ := load_ok_map.1 hm
  obtain ⟨hw, rfl, hf⟩ := load_raw_iff.1 hr
  exact ((fileBytes_err hw).1 (by rw [hf])).map _

/-- **C08.** Kind and version decide which fields exist. -/
theorem C08_kind_and_version_decide_fields (pl : Plat) (k : Kind) (file : Bytes) (m : Mesh F)
    (hm : load pl k file = .ok m) (g : Geom F) (hg : g ∈ m.geoms) (l : Lod F) (hl : l ∈ g.lods) :
    (l.pivot.isSome ↔ m.head.version ≤ 6) ∧
    (l.rigs ≠ [] → k.isSkinned = true) ∧
    (l.nodes ≠ [] → k.isSkinned = false ∧ k.isBundled = false) ∧
    ∀ x ∈ l.materials,
      (x.alphamode.isSome ↔ k.isSkinned = false) ∧
      (x.mmin.isSome ↔ k.isSkinned = false ∧ m.head.version = 11) ∧
      (x.mmax.isSome ↔ k.isSkinned = false ∧ m.head.version = 11) := by
  obtain ⟨hw, rfl⟩ := C06_loaded_wf pl k file m hm
  have h1 := (hw.geom g hg).nodes l hl
  have h2 := (hw.geom g hg).mats l hl
  refine ⟨by simp [h1.pivot], fun h => ?_, fun h => ?_, fun x hx => ?_⟩
  · by_contra hk
    rw [Bool.not_eq_true] at hk
    have := h1.rigs
    rw [h1.no_rigs hk] at this
    exact h (List.eq_nil_of_length_eq_zero this)
  · by_contra hk
    have := h1.nodes
    rw [if_pos (by revert hk; cases m.kind.isSkinned <;> cases m.kind.isBundled <;> simp)] at this
    exact h (List.eq_nil_of_length_eq_zero this)
  · have h3 := h2.each x hx
    refine ⟨by simp [h3.alphamode], by simp [h3.mmin], by simp [h3.mmax]⟩

/-- The sample file loads, with a geom, a lod and a material to speak about. -/
example : (load (F := W) win staticKind evilBox).toOption.map
    (fun m => (m.geomnum, m.head.version, m.vertices.length,
      m.geoms.map fun g => g.lods.map fun l => l.materials.length)) = some (1, 11, 500, [[1]]) := by
  decide +kernel

/-! ## C09, C10, C11 -/

/-- **C09.** A file announcing one index loads with a bare index, and writing the mesh raises
`TypeError` (after the part of the file before the index block). -/
theorem C09_one_index_never_exported (pl : Plat) (k : Kind) (file : Bytes) (m : Mesh F)
    (hm : load pl k file = .ok m) (h1 : m.indexnum = 1) :
    (∃ i, m.index = .one i) ∧ (exportMesh pl m).err = some .typeError := by
  have hr := C07_integers_in_range pl k file m hm
  obtain ⟨hw, rfl⟩ := C06_loaded_wf pl k file m hm
  have hi := hw.index
  rw [h1] at hi
  obtain ⟨i, hi'⟩ : ∃ i, m.index = .one i := by
    cases h : m.index with
    | one i => exact ⟨i, rfl⟩
    | many l => rw [h] at hi; exact absurd rfl hi.2.1
  refine ⟨⟨i, hi'⟩, ?_⟩
  -- the statements before the index block succeed
  have s : ∀ {a b : Out}, a.err = none → (a.seq b).err = b.err := by
    rintro ⟨x, e⟩ b rfl; rfl
  unfold exportMesh
  simp only [Out.all, exportHead]
  have hl := fun {v} (h : IsLong pl v) => writeLong_err.2 h
  rw [s (by simp [seq_err, hl hr.head_u1, hl hr.version, hl hr.head_u3, hl hr.head_u4,
      hl hr.head_u5]), s (writeByte_err.2 hr.u1), s (hl hr.geomnum),
    s (each_err.2 fun g hg => hl (hr.lodnum g hg)), s (hl hr.vertattribnum),
    s (each_err.2 fun a ha => ?_), s (hl hr.vertformat), s (hl hr.vertstride), s (hl hr.vertnum),
    s (each_err.2 fun _ _ => rfl), s (hl hr.indexnum), hi']
  · rfl
  · obtain ⟨a1, a2, a3, a4⟩ := hr.vattrs a ha
    simp [exportVAttr, Out.all, seq_err, writeShort_err.2 a1, writeShort_err.2 a2,
      writeShort_err.2 a3, writeShort_err.2 a4]

/-- Such a file exists: `tiny` with one index. -/
example : ∃ file : Bytes, ∃ m : Mesh F64, load win staticKind file = .ok m ∧ m.indexnum = 1 := by
  refine ⟨(fileBytes win (tinyOf staticKind 2 [0, 0, 0, 0, 0, 0] 1 (.one 0))).bytes,
    (tinyOf staticKind 2 [0, 0, 0, 0, 0, 0] 1 (.one 0)).map unpackF, ?_⟩
  decide +kernel

/-- **C10.** If the announced vertex block holds one float, the file is rejected with `TypeError`
(or `struct.error` if it ends before that float), whatever follows. -/
theorem C10_one_float_rejected (pl : Plat) (k : Kind) (p : Preamble) (bs rest : Bytes)
    (hb : p.Bytes pl bs) (hf : p.vertformat ≠ 0)
    (h1 : intDivMul p.vertstride p.vertformat p.vertnum = 1) :
    load (F := F) pl k (bs ++ rest) =
      .error (if 4 ≤ rest.length then .typeError else .structError) := by
  refine load_error ?_
  rw [loadBody_preamble hb]
  have hv : loadVertices (F := F) pl p.vertstride p.vertformat p.vertnum rest =
      .error (if 4 ≤ rest.length then .typeError else .structError) := by
    simp only [loadVertices, dataNum, if_neg hf, h1, readFloat, readCount, bind_assoc, readFloat1,
      pure_bind]
    simp only [show ¬ ((1 : Int) < 0) by decide, if_false, if_true, P.bind_run, readBytes]
    by_cases h4 : 4 ≤ rest.length
    · simp only [if_pos h4]; rfl
    · simp only [if_neg h4]
  unfold loadRest
  rw [P.bind_run, hv]

/-- **C11**, vertex format: `vertformat` 0 is a `ZeroDivisionError`. -/
theorem C11_zero_vertformat_rejected (pl : Plat) (k : Kind) (p : Preamble) (bs rest : Bytes)
    (hb : p.Bytes pl bs) (hf : p.vertformat = 0) :
    load (F := F) pl k (bs ++ rest) = .error .zeroDivisionError := by
  refine load_error ?_
  rw [loadBody_preamble hb]
  unfold loadRest loadVertices dataNum
  rw [if_pos hf]; rfl

/-- **C11**, vertices: a negative number of vertex floats is a `struct.error`. -/
theorem C11_negative_vertices_rejected (pl : Plat) (k : Kind) (p : Preamble) (bs rest : Bytes)
    (hb : p.Bytes pl bs) (hf : p.vertformat ≠ 0)
    (h1 : intDivMul p.vertstride p.vertformat p.vertnum < 0) :
    load (F := F) pl k (bs ++ rest) = .error .structError := by
  refine load_error ?_
  rw [loadBody_preamble hb]
  unfold loadRest loadVertices dataNum
  rw [if_neg hf]
  simp only [readFloat, readCount, if_pos h1]
  rfl

/-- **C11**, indices: a negative index count after the vertex block is a `struct.error`. -/
theorem C11_negative_index_rejected (pl : Plat) (k : Kind) (p : Preamble) (bs vs rest : Bytes)
    (n : Int) (hb : p.Bytes pl bs) (hf : p.vertformat ≠ 0)
    (h0 : 0 ≤ intDivMul p.vertstride p.vertformat p.vertnum)
    (h1 : intDivMul p.vertstride p.vertformat p.vertnum ≠ 1)
    (hv : (vs.length : Int) = 4 * intDivMul p.vertstride p.vertformat p.vertnum)
    (hn : IsLong pl n) (hneg : n < 0) :
    load (F := F) pl k (bs ++ (vs ++ (longBytes pl n ++ rest))) = .error .structError := by
  have hn : writeLong pl n = ⟨longBytes pl n, none⟩ :=
    (writeLong_writes n _).2 ⟨by simpa [Item.Fits] using hn, by
      simp [layout_cons, layout_nil, Item.bytes]⟩
  generalize longBytes pl n = ns at hn ⊢
  refine load_error ?_
  rw [loadBody_preamble hb]
  have key : ∀ (c : Nat) (vs s : Bytes), vs.length = 4 * c →
      ∃ l, P.rep (readFloat1 (F := F) pl) c (vs ++ s) = .ok (l, s) := by
    intro c
    induction c with
    | zero =>
      intro vs s h
      obtain rfl := List.eq_nil_of_length_eq_zero (by omega : vs.length = 0)
      exact ⟨[], rfl⟩
    | succ c ih =>
      intro vs s h
      obtain ⟨l, hl⟩ := ih (vs.drop 4) s (by simp; omega)
      refine ⟨FCodec.unpack (BitVec.ofNat 32 (pl.dec (vs.take 4))) :: l, ?_⟩
      · simp only [P.rep, readFloat1, bind_assoc, pure_bind]
        have hb4 : readBytes 4 (vs ++ s) = .ok (vs.take 4, vs.drop 4 ++ s) := by
          unfold readBytes
          rw [if_pos (by simp; omega), List.take_append_of_le_length (by omega),
            List.drop_append_of_le_length (by omega)]
        rw [run_ok hb4]
        have := run_ok (f := fun as => (pure (FCodec.unpack
          (BitVec.ofNat 32 (pl.dec (vs.take 4))) :: as) : P (List F))) hl
        exact this
  obtain ⟨l, hl⟩ := key (intDivMul p.vertstride p.vertformat p.vertnum).toNat vs (ns ++ rest)
    (by omega)
  have hv' : loadVertices (F := F) pl p.vertstride p.vertformat p.vertnum (vs ++ (ns ++ rest))
      = .ok (l, ns ++ rest) := by
    unfold loadVertices dataNum
    rw [if_neg hf]
    simp only [readFloat, readCount, if_neg (show ¬ _ < _ from not_lt.2 h0), if_neg h1, bind_assoc,
      pure_bind]
    rw [run_ok hl]; rfl
  unfold loadRest
  rw [run_ok hv', run_ok ((readLong_inv pl).complete rest trivial hn)]
  simp only [readShort, readCount, if_pos hneg]
  rfl

/-- **C11**, strings: take the file of any mesh up to the length field of one of its strings
(shader, technique or texture of a material); whatever was there, a negative length and any
continuation make the loader raise `struct.error`. -/
theorem C11_negative_string_rejected (pl : Plat) (m : Mesh W) (hw : MeshWF m)
    (pre post : List Item) (s rest : Bytes) (n : Int) (hm : m.items = pre ++ .text s :: post)
    (hp : ∀ i ∈ pre, i.Fits pl) (hn : IsLong pl n) (hneg : n < 0) :
    load (F := F) pl m.kind (layout pl pre ++ (longBytes pl n ++ rest)) = .error .structError := by
  rw [load_map, load_error ((loadBody_reads hw).neg pre s post n rest hm hp hneg hn)]
  rfl

/-- The length of the texture name of the example mesh. -/
example : tiny.items = tiny.items.take 62 ++ .text [0x64, 0x65, 0x66] :: tiny.items.drop 63 ∧
    (∀ i ∈ tiny.items.take 62, i.Fits win) ∧ IsLong win (-7) := by decide +kernel

/-- A preamble announcing one vertex float (stride 4, format 4, one vertex), one with format 0, and
one announcing -2 floats. -/
example : ∃ (p : Preamble) (bs : Bytes), p.Bytes win bs ∧ p.vertformat ≠ 0 ∧
    intDivMul p.vertstride p.vertformat p.vertnum = 1 :=
  ⟨⟨⟨0, 11, 0, 0, 0⟩, 0, 1, [1], 1, [⟨0, 0, 0, 0⟩], 4, 4, 1⟩, _, ⟨rfl, rfl, by decide, rfl⟩, by decide,
    by decide +kernel⟩
example : ∃ (p : Preamble) (bs : Bytes), p.Bytes win bs ∧ p.vertformat = 0 :=
  ⟨⟨⟨0, 11, 0, 0, 0⟩, 0, 1, [1], 1, [⟨0, 0, 0, 0⟩], 0, 4, 1⟩, _, ⟨rfl, rfl, by decide, rfl⟩, by decide⟩
example : ∃ (p : Preamble) (bs : Bytes), p.Bytes win bs ∧ p.vertformat ≠ 0 ∧
    intDivMul p.vertstride p.vertformat p.vertnum < 0 :=
  ⟨⟨⟨0, 11, 0, 0, 0⟩, 0, 1, [1], 1, [⟨0, 0, 0, 0⟩], 4, 8, -1⟩, _, ⟨rfl, rfl, by decide, rfl⟩, by decide,
    by decide +kernel⟩
example : ∃ (p : Preamble) (bs vs : Bytes), p.Bytes win bs ∧ p.vertformat ≠ 0 ∧
    intDivMul p.vertstride p.vertformat p.vertnum = 3 ∧ vs.length = 12 ∧
    IsLong win (-5) :=
  ⟨⟨⟨0, 11, 0, 0, 0⟩, 0, 1, [1], 1, [⟨0, 0, 2, 0⟩], 4, 12, 1⟩, _, List.replicate 12 0,
    ⟨rfl, rfl, by decide, rfl⟩, by decide, by decide +kernel, rfl, by decide⟩

/-! ## C13 -/

/-- **C13.** The same mesh written on a platform with 4-byte `long` does not load on one with
8-byte `long`, nor the other way round, although each platform reads its own file back. -/
theorem C13_not_portable : ∃ m : Mesh F64, ∃ k : Kind,
    load win k (exportMesh win m).bytes = .ok m ∧
    load linux k (exportMesh linux m).bytes = .ok m ∧
    (∃ e, load (F := F64) linux k (exportMesh win m).bytes = .error e) ∧
    (∃ e, load (F := F64) win k (exportMesh linux m).bytes = .error e) := by
  refine ⟨tiny.map unpackF, staticKind, by decide +kernel, by decide +kernel, ⟨.structError, ?_⟩,
    ⟨.zeroDivisionError, ?_⟩⟩ <;> decide +kernel

/-- The sample file shipped with the project does not load where C `long` has 8 bytes. -/
theorem C13_sample_not_portable :
    load (F := F64) linux staticKind evilBox = .error .structError := by decide +kernel

/-! ## C52 -/

/-- **C52.** The number of vertex floats is `vertstride / vertformat * vertnum` exactly. -/
theorem C52_vertex_float_count (pl : Plat) (k : Kind) (file : Bytes) (m : Mesh F) (q : Int)
    (hm : load pl k file = .ok m) (hd : m.vertstride = m.vertformat * q)
    (hb : |q * m.vertnum| ≤ 2 ^ 53) : (m.vertices.length : Int) = q * m.vertnum := by
  obtain ⟨hw, -⟩ := C06_loaded_wf pl k file m hm
  rw [hw.vertices, Mesh.announced, intDivMul_exact hw.vertformat hd hb]

/-- Without divisibility the count may be smaller than the vertices need: stride 10, format 4, three
vertices give 7 floats. -/
example : intDivMul 10 4 3 = 7 ∧ intDivMul 80 4 25 = 500 := by decide +kernel

end Bf2
