import Verif.OldShowLemmas
import Verif.OldTransformLemmas
import Verif.Props.OldHistory
import Verif.Props.OldPrograms

/-! # C155: what `display_material_data` and `mesh_read.py` print -/

namespace Bf2

section
variable {F : Type}

/-- Material `a` is at this place of the mesh, with Python indices. -/
def OldPlace (m : OldMesh F) (geom lod material : Int) (a : Mat F) : Prop :=
  ∃ i j n g l, Names m.geoms.length geom i ∧ m.geoms[i]? = some g ∧ Names g.lods.length lod j ∧
    g.lods[j]? = some l ∧ Names l.materials.length material n ∧ l.materials[n]? = some a

/-- What the lines say about a material. -/
def ShowsMat (lines : List Str) (a : Mat F) : Prop :=
  ∃ (al fx te mn vn vs ic ist : Str) (maps : List Str),
    lines = ["alphamode = ".toList ++ al, "fxfile = ".toList ++ fx, "technique = ".toList ++ te,
        "mapnum = ".toList ++ mn] ++ maps ++
      ["vnum = ".toList ++ vn, "vstart = ".toList ++ vs, "inum = ".toList ++ ic, "istart = ".toList ++ ist] ∧
    WritesOpt al a.alphamode ∧ WritesBytes fx a.fxfile ∧ WritesBytes te a.technique ∧
    WritesInt mn a.mapnum ∧ WritesMaps 0 maps a.maps ∧ WritesInt vn a.vnum ∧ WritesInt vs a.vstart ∧
    WritesInt ic a.inum ∧ WritesInt ist a.istart

theorem pyGet_iff {α : Type} {l : List α} {id : Int} {x : α} :
    pyGet l id = some x ↔ ∃ j, Names l.length id j ∧ l[j]? = some x := by
  constructor
  · intro h
    by_cases hn : ∃ j, Names l.length id j
    · obtain ⟨j, hj⟩ := hn
      rw [pyGet_names hj] at h
      exact ⟨j, hj, h⟩
    · rw [pyGet_bad (fun j hj => hn ⟨j, hj⟩)] at h
      cases h
  · rintro ⟨j, hj, h⟩
    rw [pyGet_names hj, h]

theorem oldMatAt_iff {m : OldMesh F} {geom lod material : Int} {a : Mat F} :
    oldMatAt m geom lod material = some a ↔ OldPlace m geom lod material a := by
  unfold oldMatAt OldPlace
  constructor
  · intro h
    split at h
    · cases h
    · next g hg =>
      split at h
      · cases h
      · next l hl =>
        obtain ⟨i, hi, hg⟩ := pyGet_iff.1 hg
        obtain ⟨j, hj, hl⟩ := pyGet_iff.1 hl
        obtain ⟨n, hn, ha⟩ := pyGet_iff.1 h
        exact ⟨i, j, n, g, l, hi, hg, hj, hl, hn, ha⟩
  · rintro ⟨i, j, n, g, l, hi, hg, hj, hl, hn, ha⟩
    rw [pyGet_iff.2 ⟨i, hi, hg⟩]
    simp only
    rw [pyGet_iff.2 ⟨j, hj, hl⟩]
    simp only
    rw [pyGet_iff.2 ⟨n, hn, ha⟩]

theorem matTexts_shows (a : Mat F) : ShowsMat (matTexts a) a :=
  ⟨_, _, _, _, _, _, _, _, _, rfl, optText_writes _, bytesText_writes _, bytesText_writes _,
    intText_writes _, mapTexts_writes _ _, intText_writes _, intText_writes _, intText_writes _,
    intText_writes _⟩

/-- **C155.** If the material exists, `display_material_data` prints a title and then its fields, one to a
line, and does not raise. -/
theorem C155_shows {m : OldMesh F} {geom lod material : Int} {a : Mat F}
    (h : OldPlace m geom lod material a) :
    ∃ n lines, displayMaterial m geom lod material = (("\ngeom".toList ++ n) :: lines, none) ∧
      WritesInt n geom ∧ ShowsMat lines a := by
  refine ⟨_, matTexts a, ?_, intText_writes _, matTexts_shows a⟩
  unfold displayMaterial
  rw [oldMatAt_iff.2 h]

/-- Otherwise it raises `IndexError` after the title. -/
theorem C155_missing {m : OldMesh F} {geom lod material : Int} :
    (∀ a, ¬ OldPlace m geom lod material a) ↔
    ∃ n, displayMaterial m geom lod material = (["\ngeom".toList ++ n], some .indexError) ∧
      WritesInt n geom := by
  unfold displayMaterial
  rcases ho : oldMatAt m geom lod material with _ | a
  · simp only
    refine ⟨fun _ => ⟨_, rfl, intText_writes _⟩, fun _ a ha => ?_⟩
    rw [oldMatAt_iff.2 ha] at ho
    cases ho
  · simp only
    refine ⟨fun h => absurd (oldMatAt_iff.1 ho) (h a), ?_⟩
    rintro ⟨n, h, -⟩
    cases h

/-- Nothing shown is ambiguous: from the lines each of the fields can be told, also names with quotes,
backslashes or bytes that are not printable. -/
theorem C155_faithful {lines : List Str} {a b : Mat F} (ha : ShowsMat lines a) (hb : ShowsMat lines b) :
    a.alphamode = b.alphamode ∧ a.fxfile = b.fxfile ∧ a.technique = b.technique ∧ a.mapnum = b.mapnum ∧
    a.maps = b.maps ∧ a.vnum = b.vnum ∧ a.vstart = b.vstart ∧ a.inum = b.inum ∧ a.istart = b.istart := by
  obtain ⟨al, fx, te, mn, vn, vs, ic, ist, maps, e, h1, h2, h3, h4, h5, h6, h7, h8, h9⟩ := ha
  obtain ⟨al', fx', te', mn', vn', vs', ic', ist', maps', e', k1, k2, k3, k4, k5, k6, k7, k8, k9⟩ := hb
  rw [e] at e'
  obtain ⟨e1, e2⟩ := List.append_inj' e' rfl
  obtain ⟨e3, rfl⟩ := List.append_inj e1 rfl
  simp only [List.cons.injEq, List.append_cancel_left_eq, and_true] at e2 e3
  obtain ⟨rfl, rfl, rfl, rfl⟩ := e2
  obtain ⟨rfl, rfl, rfl, rfl⟩ := e3
  exact ⟨h1.inj k1, h2.inj k2, h3.inj k3, h4.inj k4, h5.inj k5, h6.inj k6, h7.inj k7, h8.inj k8, h9.inj k9⟩

/-- So two calls print the same lines after the title exactly for materials that agree in these fields. -/
theorem C155_same_lines (a b : Mat F) : matTexts a = matTexts b ↔
    a.alphamode = b.alphamode ∧ a.fxfile = b.fxfile ∧ a.technique = b.technique ∧ a.mapnum = b.mapnum ∧
    a.maps = b.maps ∧ a.vnum = b.vnum ∧ a.vstart = b.vstart ∧ a.inum = b.inum ∧ a.istart = b.istart := by
  constructor
  · intro h
    exact C155_faithful (matTexts_shows a) (h ▸ matTexts_shows b)
  · rintro ⟨h1, h2, h3, h4, h5, h6, h7, h8, h9⟩
    unfold matTexts
    rw [h1, h2, h3, h4, h5, h6, h7, h8, h9]

variable [FCodec F]

/-- `mesh_read.py` ends normally exactly if its file loads and geoms 17 and 18 have a first lod with a
first material, and then has shown these two; it raises `IndexError` if one is missing, and otherwise what
loading the file raises. -/
theorem C155_program (pl : Plat) (fs : FS) :
    (∀ e, oldLoadPath (F := F) pl fs kitsFile = .error e → meshRead F pl fs = ([], some e)) ∧
    ∀ m : OldMesh F, oldLoadPath pl fs kitsFile = .ok m →
      ((meshRead F pl fs).2 = none ↔ (∃ a, OldPlace m 17 0 0 a) ∧ ∃ b, OldPlace m 18 0 0 b) ∧
      ((meshRead F pl fs).2 ≠ none → (meshRead F pl fs).2 = some .indexError) ∧
      ∀ a b, OldPlace m 17 0 0 a → OldPlace m 18 0 0 b → ∃ l l',
        (meshRead F pl fs).1 = "\ngeom17".toList :: (l ++ "\ngeom18".toList :: l') ∧
          ShowsMat l a ∧ ShowsMat l' b := by
  refine ⟨fun e he => by unfold meshRead; rw [he], fun m hm => ?_⟩
  unfold meshRead
  rw [hm]
  simp only
  unfold displayMaterial
  rcases ha : oldMatAt m 17 0 0 with _ | a
  · have na : ∀ a, ¬ OldPlace m 17 0 0 a := fun a h => by rw [oldMatAt_iff.2 h] at ha; cases ha
    simp only
    exact ⟨⟨fun h => (by cases h), fun h => absurd h.1.choose_spec (na _)⟩, fun _ => by trivial,
      fun a _ h => absurd h (na a)⟩
  · have pa := oldMatAt_iff.1 ha
    rcases hb : oldMatAt m 18 0 0 with _ | b
    · have nb : ∀ b, ¬ OldPlace m 18 0 0 b := fun b h => by rw [oldMatAt_iff.2 h] at hb; cases hb
      simp only
      exact ⟨⟨fun h => (by cases h), fun h => absurd h.2.choose_spec (nb _)⟩, fun _ => by trivial,
        fun _ b _ h => absurd h (nb b)⟩
    · have pb := oldMatAt_iff.1 hb
      simp only
      refine ⟨⟨fun _ => ⟨⟨a, pa⟩, b, pb⟩, fun _ => by trivial⟩, fun h => absurd rfl h, fun a' b' qa qb => ?_⟩
      rw [oldMatAt_iff.2 qa] at ha
      rw [oldMatAt_iff.2 qb] at hb
      obtain rfl := Option.some.inj ha
      obtain rfl := Option.some.inj hb
      exact ⟨matTexts a', matTexts b', rfl, matTexts_shows a', matTexts_shows b'⟩

end

/-- Names with both kinds of quotes, a backslash, a tab and a byte that is not printable. -/
example : bytesText [39, 34, 92, 9, 255, 65] = "b'\\'\"\\\\\\t\\xffA'".toList ∧
    bytesText [39, 65] = "b\"'A\"".toList ∧
    bytesText [] = "b''".toList ∧
    (displayMaterial staticBox 0 0 0).1.length = 10 ∧ (displayMaterial staticBox 0 0 0).2 = none ∧
    (displayMaterial staticBox 0 (-1) 1) = (["\ngeom0".toList], some .indexError) ∧
    (oldMatAt staticBox (-1) 0 0).isSome = true := by
  decide +kernel

/-- The file of `mesh_read.py`, started in `/w`, with `n` geoms of one material each. -/
def showFS (n : Nat) : FS :=
  fsWith [['w'], kitsFile]
    (exportMesh win { kitsOf 0 with geomnum := n, geoms := (List.replicate n ((kitsOf 0).geoms.drop 8)).flatten }).bytes

/-- With 19 geoms the program ends normally, with 18 it does not, without the file neither. -/
example : (oldLoadPath (F := F64) win (showFS 19) kitsFile).toOption.map (fun m =>
      ((oldMatAt m 17 0 0).isSome, (oldMatAt m 18 0 0).isSome)) = some (true, true) ∧
    (meshRead F64 win (showFS 19)).2 = none ∧ (meshRead F64 win (showFS 19)).1.length = 20 ∧
    (meshRead F64 win (showFS 18)).2 = some .indexError ∧
    (meshRead F64 win (showFS 18)).1.length = 11 ∧
    meshRead F64 win boxFS = ([], some .fileNotFoundError) := by
  decide +kernel

end Bf2
