import Verif.ColLemmas
import Verif.ColSample
import Verif.EqualLemmas
import Verif.ObjectLemmas

/-!
# C59-C63: collision mesh files

`Verif/ColSpec.lean` lists the items of a collision mesh file; a file content is a `ColFile`, the mesh
object of a content is `ColMesh.obj`, and the content stored for a mesh object `ColMesh.stored`.
-/

namespace Bf2

/-! ## C59: loading -/

/-- **C59.** A file loads exactly when it starts with the items of a content with consistent counts,
each in range; what follows them is ignored. -/
theorem C59_loads_iff_layout (pl : Plat) (file : Bytes) (m : ColMesh F64 ColFace) :
    loadCol pl file = .ok m ↔
      ∃ (r : ColFile) (rest : Bytes), ColWF r ∧ (∀ i ∈ r.items, i.Fits pl) ∧
        file = layout pl r.items ++ rest ∧ m = r.obj := by
  have key := readCol_parses (F := F64) (pl := pl) file
  unfold loadCol
  constructor
  · intro h
    split at h
    · next m' rest hr =>
      cases h
      obtain ⟨r, h1, h2, h3, h4⟩ := (key _ _).1 hr
      exact ⟨r, rest, h1, h2, h3, h4⟩
    · cases h
  · rintro ⟨r, rest, h1, h2, h3, h4⟩
    have := (key m rest).2 ⟨r, h1, h2, h3, h4⟩
    rw [this]

/-- **C59**, the content is determined by the file. -/
theorem C59_content_unique (pl : Plat) (r r' : ColFile) (rest rest' : Bytes) (h : ColWF r)
    (h' : ColWF r') (hf : ∀ i ∈ r.items, i.Fits pl) (hf' : ∀ i ∈ r'.items, i.Fits pl)
    (he : layout pl r.items ++ rest = layout pl r'.items ++ rest') : r = r' ∧ rest = rest' := by
  have key := readCol_parses (F := W) (pl := pl) (layout pl r.items ++ rest)
  have h1 := (key _ rest).2 ⟨r, h, hf, rfl, rfl⟩
  have h2 := (key _ rest').2 ⟨r', h', hf', he, rfl⟩
  rw [h1] at h2
  simp only [Except.ok.injEq, Prod.mk.injEq] at h2
  obtain ⟨h3, h4⟩ := h2
  refine ⟨?_, h4⟩
  have h5 := congrArg (ColMesh.map id fun f : ColFace => (⟨f.v1, f.v2, f.v3, f.m.getD 0⟩ : FileFace)) h3
  rw [ColMesh.map_map, ColMesh.map_map] at h5
  have e : ∀ x : ColFile, x.map (id ∘ FCodec.unpack)
      ((fun f : ColFace => (⟨f.v1, f.v2, f.v3, f.m.getD 0⟩ : FileFace)) ∘ FileFace.obj) = x :=
    fun x => ColMesh.map_eq_self.2 fun l _ => ⟨fun _ _ => rfl, fun _ _ => rfl⟩
  rwa [e, e] at h5

/-- The sample file is a file with three lods of 12 faces, 8 vertices each, and no further bytes. -/
example : (loadCol (F := F64) win evilBoxCol).toOption.map (fun m =>
      (m.version, m.lods.map fun l => (l.coltype, l.faces.length, l.vertices.length, l.adata.length)))
      = some (10, [(0, 12, 8, 36), (1, 12, 8, 36), (2, 12, 8, 36)]) ∧
    loadCol (F := W) win (layout win triCol.items ++ [1, 2, 3]) = .ok (triCol.map id FileFace.obj) ∧
    (layout win triCol.items).length = 330 := by
  decide +kernel

example : ColWF triCol ∧ ∀ i ∈ triCol.items, i.Fits win := by
  refine ⟨⟨rfl, ?_⟩, by decide⟩
  intro g hg
  simp only [triCol, List.mem_singleton] at hg
  subst hg
  refine ⟨rfl, fun s hs => ?_⟩
  simp only [List.mem_singleton] at hs
  subst hs
  refine ⟨rfl, fun l hl => ?_⟩
  simp only [List.mem_cons, List.not_mem_nil, or_false] at hl
  rcases hl with rfl | rfl <;> exact ⟨by decide, rfl, rfl, rfl, rfl, rfl, rfl⟩

/-- **C59**, what the loader accepts has consistent counts, known collision types and faces with the
constructor's material. -/
theorem C59_loaded_wf (pl : Plat) (file : Bytes) (m : ColMesh F64 ColFace)
    (h : loadCol pl file = .ok m) :
    ColWF m ∧ ∀ l ∈ m.lods, ∀ f ∈ l.faces, f.material = 0 ∧ ∃ x, f.m = some x := by
  obtain ⟨r, rest, h1, -, -, rfl⟩ := (C59_loads_iff_layout pl file m).1 h
  refine ⟨h1.map _ _, ?_⟩
  intro l hl f hf
  simp only [ColMesh.lods, ColMesh.obj, ColMesh.map, List.mem_flatMap, List.mem_map] at hl
  obtain ⟨_, ⟨g, hg, rfl⟩, s, hs, hl⟩ := hl
  simp only [ColGeom.map, List.mem_map] at hs
  obtain ⟨s, hs, rfl⟩ := hs
  simp only [ColSub.map, List.mem_map] at hl
  obtain ⟨l, hl, rfl⟩ := hl
  simp only [ColLod.map, List.mem_map] at hf
  obtain ⟨f, hf, rfl⟩ := hf
  exact ⟨rfl, _, rfl⟩

/-! ## C60: files that do not load -/

/-- **C60.** Every proper prefix of the items of a content is rejected with `struct.error`. -/
theorem C60_truncation_rejected (pl : Plat) (r : ColFile) (hr : ColWF r)
    (hf : ∀ i ∈ r.items, i.Fits pl) (part tail : Bytes) (he : layout pl r.items = part ++ tail)
    (ht : tail ≠ []) : loadCol (F := F64) pl part = .error .structError := by
  have h1 := (readCol_parses (F := F64) (pl := pl) (part ++ tail) _ []).2
    ⟨r, hr, hf, by rw [he, List.append_nil], rfl⟩
  rcases Strict.readCol (F := F64) (pl := pl) _ _ _ part h1 (List.prefix_append _ _) with
    ⟨r', h2, h3⟩ | h2
  · obtain rfl := List.prefix_nil.1 h3
    obtain ⟨x, hx, hfx, hex, -⟩ := (readCol_parses (F := F64) (pl := pl) part _ []).1 h2
    have := C59_content_unique pl r x [] tail hr hx hf hfx (by
      rw [List.append_nil, he, hex, List.append_nil])
    exact absurd this.2.symm ht
  · unfold loadCol
    rw [h2]

/-- The sample file without its last byte. -/
example : loadCol (F := F64) win (evilBoxCol.take 1510) = .error .structError := by decide +kernel

/-- **C60.** A collision type other than 0 to 4, in a file of version 9 or later, is rejected with
`ValueError`: in the first lod or after any number of complete geoms, subgeoms and lods, and whatever
follows. -/
theorem C60_unknown_coltype_rejected (pl : Plat) (u1 version geomnum subgeomnum lodnum t : Int)
    (gs : List (ColGeom W FileFace)) (ss : List (ColSub W FileFace)) (ls : List (ColLod W FileFace))
    (rest : Bytes) (hv : 9 ≤ version)
    (hgs : ∀ g ∈ gs, ColGeomWF version g) (hss : ∀ s ∈ ss, ColSubWF version s)
    (hls : ∀ l ∈ ls, ColLodWF version l)
    (hgn : (gs.length : Int) < geomnum) (hsn : (ss.length : Int) < subgeomnum)
    (hln : (ls.length : Int) < lodnum) (ht : ¬ (0 ≤ t ∧ t ≤ 4))
    (items : List Item)
    (hi : items = [.long u1, .long version, .long geomnum] ++ gs.flatMap (ColGeom.items version) ++
      [.long subgeomnum] ++ ss.flatMap (ColSub.items version) ++
      [.long lodnum] ++ ls.flatMap (ColLod.items version) ++ [.long t])
    (hf : ∀ i ∈ items, i.Fits pl) :
    loadCol (F := F64) pl (layout pl items ++ rest) = .error .valueError := by
  subst hi
  have hlong : ∀ (v : Int) (s : Bytes), Item.Fits pl (.long v) →
      readLong pl (layout pl [.long v] ++ s) = .ok (v, s) := fun v s h =>
    (readLong_parses _ _ _).2 ⟨v, trivial, by simpa using h, rfl, rfl⟩
  have h1 : readLod (F := F64) pl version (layout pl [.long t] ++ rest) = .error .valueError := by
    unfold readLod readLodType readColtype
    rw [if_pos hv]
    simp only [P.bind_run, hlong t rest (hf _ (by simp)), if_neg ht, P.raise_run]
  have h2 := rep_raises (readLod_parses (F := F64) (pl := pl) version) hls
    (fun i hi => hf i (by simp only [List.mem_append]; tauto)) h1 (n := lodnum.toNat) (by omega)
  have h3 : readSub (F := F64) pl version (layout pl [.long lodnum] ++
      (layout pl (ls.flatMap (ColLod.items version)) ++ (layout pl [.long t] ++ rest))) =
      .error .valueError := by
    unfold readSub
    simp only [P.bind_run, hlong lodnum _ (hf _ (by simp)), h2]
  have h4 := rep_raises (readSub_parses (F := F64) (pl := pl) version) hss
    (fun i hi => hf i (by simp only [List.mem_append]; tauto)) h3 (n := subgeomnum.toNat) (by omega)
  have h5 : readGeom (F := F64) pl version (layout pl [.long subgeomnum] ++
      (layout pl (ss.flatMap (ColSub.items version)) ++ (layout pl [.long lodnum] ++
      (layout pl (ls.flatMap (ColLod.items version)) ++ (layout pl [.long t] ++ rest))))) =
      .error .valueError := by
    unfold readGeom
    simp only [P.bind_run, hlong subgeomnum _ (hf _ (by simp)), h4]
  have h6 := rep_raises (readGeom_parses (F := F64) (pl := pl) version) hgs
    (fun i hi => hf i (by simp only [List.mem_append]; tauto)) h5 (n := geomnum.toNat) (by omega)
  have h7 : layout pl [.long u1, .long version, .long geomnum] =
      layout pl [.long u1] ++ (layout pl [.long version] ++ layout pl [.long geomnum]) := by
    simp [layout_cons, layout_nil]
  unfold loadCol readCol
  simp only [layout_append, h7, List.append_assoc, P.bind_run, hlong u1 _ (hf _ (by simp)),
    hlong version _ (hf _ (by simp)), hlong geomnum _ (hf _ (by simp)), h6]

/-- The second lod of the small file with collision type 5. -/
example : loadCol (F := F64) win (layout win (ColMesh.items
    ⟨0, 10, 1, [⟨1, [⟨2, [triLod, { triLod with coltype := 5 }]⟩]⟩]⟩)) = .error .valueError := by
  decide +kernel

/-! ## C61: saving -/

/-- **C61.** Saving succeeds exactly when every item of the stored content is in range, and then writes
these items in order; the counts need not be consistent. -/
theorem C61_save_writes_layout (pl : Plat) (m : ColMesh F64 ColFace) (bs : Bytes) :
    writeCol pl m = ⟨bs, none⟩ ↔
      (∀ i ∈ m.stored.items, i.Fits pl) ∧ bs = layout pl m.stored.items :=
  writeCol_writes m bs

/-- **C61.** A saved mesh with consistent counts loads again: floats are rounded to binary32, and every
face gets its former `material` as `m` and the constructor's `material`. -/
theorem C61_reload_of_save (pl : Plat) (m : ColMesh F64 ColFace) (bs : Bytes) (hw : ColWF m)
    (he : writeCol pl m = ⟨bs, none⟩) :
    loadCol pl bs = .ok (m.map (fun x => unpackF (packF x))
      fun f => { f with material := 0, m := some f.material }) := by
  obtain ⟨h1, h2⟩ := (C61_save_writes_layout pl m bs).1 he
  refine (C59_loads_iff_layout pl bs _).2 ⟨m.stored, [], hw.map _ _, h1, by simp [h2], ?_⟩
  unfold ColMesh.obj ColMesh.stored
  rw [ColMesh.map_map]
  rfl

/-- A mesh with a double that is no binary32 value (0.1), and a face made by the constructor with
material 3: saved on Windows, the reloaded face has `m = 3`. -/
example :
    let m : ColMesh F64 ColFace := (triCol.map unpackF fun f => ⟨f.v1, f.v2, f.v3, 3, none⟩)
    (writeCol win m).err = none ∧
    (loadCol (F := F64) win (writeCol win m).bytes).toOption.map (fun m =>
      m.lods.map fun l => l.faces) = some [[⟨0, 1, 2, 0, some 3⟩], [⟨0, 1, 2, 0, some 3⟩]] := by
  decide +kernel

/-! ## C62: saving what was loaded -/

/-- **C62.** Saving an unmodified mesh never raises and writes the content of the file with every
material replaced by 0 and signalling NaNs made quiet, without the bytes after the content. -/
theorem C62_load_save (pl : Plat) (r : ColFile) (rest : Bytes) (hr : ColWF r)
    (hf : ∀ i ∈ r.items, i.Fits pl) :
    loadCol (F := F64) pl (layout pl r.items ++ rest) = .ok r.obj ∧
      writeCol pl r.obj = ⟨layout pl (r.map quieted FileFace.blank).items, none⟩ := by
  refine ⟨(C59_loads_iff_layout pl _ _).2 ⟨r, rest, hr, hf, rfl, rfl⟩, ?_⟩
  have he : r.obj.stored = r.map quieted FileFace.blank := by
    unfold ColMesh.obj ColMesh.stored
    rw [ColMesh.map_map]
    have : packF ∘ unpackF = quieted := funext packF_unpackF
    rw [this]
    rfl
  rw [← he, C61_save_writes_layout]
  refine ⟨?_, rfl⟩
  rw [he]
  exact (Alike.mesh quieted Alike.blank r).fits hf

/-- The small file, with a signalling NaN as a lower bound and three more bytes: material 7 is lost, the
NaN is changed, the bytes are gone. -/
example :
    let r : ColFile := ⟨0, 10, 1, [⟨1, [⟨1, [{ triLod with min := ⟨0x7f800001, 0, 0⟩ }]⟩]⟩]⟩
    (loadCol (F := F64) win (layout win r.items ++ [1, 2, 3])).toOption.map
      (fun m => (writeCol win m).bytes) =
    some (layout win (ColMesh.items ⟨0, 10, 1, [⟨1, [⟨1,
      [{ triLod with faces := [⟨0, 1, 2, 0⟩], min := ⟨0x7fc00001, 0, 0⟩ }]⟩]⟩]⟩)) := by
  decide +kernel

/-- **C62**, when the file is reproduced: exactly when all materials are 0, no float is a signalling
NaN, and nothing follows the content. -/
theorem C62_identical_iff (pl : Plat) (r : ColFile) (rest : Bytes) (hr : ColWF r)
    (hf : ∀ i ∈ r.items, i.Fits pl) :
    (writeCol pl r.obj).bytes = layout pl r.items ++ rest ↔
      rest = [] ∧ ∀ l ∈ r.lods, (∀ f ∈ l.faces, f.material = 0) ∧ ∀ w ∈ l.floats, ¬ SNaN w := by
  have hs := (C62_load_save pl r rest hr hf).2
  have hl := Alike.mesh (pl := pl) quieted Alike.blank r
  rw [hs]
  have e : r.map quieted FileFace.blank = r ↔
      ∀ l ∈ r.lods, (∀ f ∈ l.faces, f.material = 0) ∧ ∀ w ∈ l.floats, ¬ SNaN w := by
    rw [ColMesh.map_eq_self]
    have e1 : ∀ f : FileFace, f.blank = f ↔ f.material = 0 := by
      rintro ⟨⟩; simp [FileFace.blank, eq_comm]
    have e2 : ∀ w, quieted w = w ↔ ¬ SNaN w := by
      refine fun w => ⟨fun h hn => ?_, quieted_of_not⟩
      rw [← h, ← packF_unpackF] at hn
      exact not_SNaN_packF _ hn
    simp only [e1, e2]
  rw [← e]
  constructor
  · intro h
    have h0 : rest = [] := by
      have : (layout pl (r.map quieted FileFace.blank).items).length =
        (layout pl r.items ++ rest).length := congrArg List.length h
      rw [List.length_append, hl.length] at this
      exact List.eq_nil_of_length_eq_zero (by omega)
    subst h0
    exact ⟨rfl, (C59_content_unique pl _ r [] [] (hr.map _ _) hr (hl.fits hf) hf
      (by simpa using h)).1⟩
  · rintro ⟨rfl, h⟩
    rw [h, List.append_nil]

/-- The sample file is reproduced: all its materials are 0. -/
example : (loadCol (F := F64) win evilBoxCol).toOption.map (fun m => writeCol win m) =
    some ⟨evilBoxCol, none⟩ := by decide +kernel

/-! ## C63: `save` and the file system -/

section
variable {F : Type} [FCodec F]

/-- **C59**, `ColMesh(filename)`: without a name, or with an empty one, an empty mesh and no file is
looked at; otherwise the file of that name is loaded, and a name of no file raises. -/
theorem C59_construct (pl : Plat) (fs : FS) (name : Str) :
    constructCol (F := F) pl fs none = .ok ⟨0, 0, 0, []⟩ ∧
    constructCol (F := F) pl fs (some []) = .ok ⟨0, 0, 0, []⟩ ∧
    (∀ loc content, name ≠ [] → fs.resolve name = .ok loc → fs.node loc = some (.file content) →
      constructCol (F := F) pl fs (some name) = loadCol pl content) ∧
    (∀ loc, name ≠ [] → fs.resolve name = .ok loc → fs.node loc = none →
      constructCol (F := F) pl fs (some name) = .error .fileNotFoundError) := by
  refine ⟨rfl, rfl, fun loc content hn hr hc => ?_, fun loc hn hr hc => ?_⟩ <;>
  · obtain ⟨c, cs, rfl⟩ := List.exists_cons_of_ne_nil hn
    unfold constructCol FS.read
    simp only
    rw [hr]
    simp only
    rw [hc]

/-- **C63.** Saving under a name without a slash raises `FileNotFoundError` and changes nothing. -/
theorem C63_bare_name (pl : Plat) (fs : FS) (m : ColMesh F ColFace) (name : Str) (h : '/' ∉ name) :
    saveCol pl fs m name = (fs, some .fileNotFoundError) := by
  have he : fs.ensureDir name = (fs, some .fileNotFoundError) := by
    unfold FS.ensureDir dirname
    rw [pathSplit_bare h]
    rfl
  unfold saveCol
  rw [he]

/-- **C63.** A successful save changes the named file only, up to new directories, and constructing
from that name then loads what was written. -/
theorem C63_one_file {pl : Plat} {fs fs' : FS} {m : ColMesh F ColFace} {name : Str}
    (h : saveCol pl fs m name = (fs', none)) :
    (writeCol pl m).err = none ∧ (∃ loc, Written fs fs' name loc (writeCol pl m).bytes) ∧
      constructCol (F := F) pl fs' (some name) = loadCol pl (writeCol pl m).bytes := by
  have hn : '/' ∈ name := by
    by_contra hn
    rw [C63_bare_name pl fs m name hn] at h
    cases h
  unfold saveCol at h
  have hg := Grown.ensureDir fs name
  rcases hd : fs.ensureDir name with ⟨fs1, _ | e⟩
  · rw [hd] at h hg
    simp only at h hg
    rcases hw : fs1.openWrite name with e | ⟨fs2, l⟩
    · rw [hw] at h; cases h
    · rw [hw] at h
      simp only [Prod.mk.injEq] at h
      obtain ⟨rfl, he⟩ := h
      have hW := (openWrite_set hw (writeCol pl m).bytes).grown hg
      refine ⟨he, ⟨l, hW⟩, ?_⟩
      match name, hn with
      | c :: cs, _ =>
        unfold constructCol
        simp only
        rw [hW.read]
  · rw [hd] at h; cases h

/-- **C63.** When an item is out of range, `save` raises, but the target has been emptied already: it
holds the bytes up to that item, and its former content is lost. -/
theorem C63_failed_save_truncates {pl : Plat} {fs fs1 : FS} {m : ColMesh F ColFace} {name : Str}
    {e : Err} (hd : fs.ensureDir name = (fs1, none)) (he : (writeCol pl m).err = some e)
    {loc : Loc} (hr : fs1.resolve name = .ok loc) (hnd : fs1.node loc ≠ some .dir) :
    ∃ fs', saveCol pl fs m name = (fs', some e) ∧
      Written fs fs' name loc (writeCol pl m).bytes := by
  have hg := Grown.ensureDir fs name
  rw [hd] at hg
  have how : fs1.openWrite name = .ok (fs1.set loc (.file []), loc) := by
    unfold FS.openWrite
    rw [hr]
    simp only
  refine ⟨(fs1.set loc (.file [])).set loc (.file (writeCol pl m).bytes), ?_,
    (openWrite_set how _).grown hg⟩
  unfold saveCol
  rw [hd]
  simp only
  rw [how]
  simp only
  rw [← he]

end

/-- A file system with a directory `d` holding a file `f`. -/
def colFS : FS where
  node q := if q = [] ∨ q = [['d']] then some .dir
    else if q = [['d'], ['f']] then some (.file [1, 2, 3]) else none
  cwd := []

/-- Saving over the old file `d/f` and into a new directory `e`, under a bare name, and a mesh with a
corner that is no short: only the two longs before the lod's first face corner remain. -/
example :
    (saveCol win colFS triCol.obj "d/f".toList).2 = none ∧
    (saveCol win colFS triCol.obj "e/f".toList).2 = none ∧
    (saveCol win colFS triCol.obj "f".toList).2 = some .fileNotFoundError ∧
    ((saveCol win colFS (ColMesh.obj ⟨0, 8, 1, [⟨1, [⟨1, [{ triLod with faces := [⟨40000, 0, 0, 0⟩] }]⟩]⟩]⟩)
      "d/f".toList).1.read "d/f".toList).toOption.map List.length = some 24 ∧
    (saveCol win colFS (ColMesh.obj ⟨0, 8, 1, [⟨1, [⟨1, [{ triLod with faces := [⟨40000, 0, 0, 0⟩] }]⟩]⟩]⟩)
      "d/f".toList).2 = some .structError := by
  decide +kernel

/-- The sample collision mesh, constructed by its name, and a name of no file. -/
example : ∃ fs : FS, fs.resolve ['a'] = .ok [['a']] ∧ fs.node [['a']] = some (.file evilBoxCol) ∧
    fs.resolve ['b'] = .ok [['b']] ∧ fs.node [['b']] = none := by
  refine ⟨⟨fun q => if q = [] then some .dir else if q = [['a']] then some (.file evilBoxCol) else none,
    []⟩, ?_⟩
  decide +kernel

end Bf2
