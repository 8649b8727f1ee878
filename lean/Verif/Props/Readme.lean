import Verif.ReadmeSpec
import Verif.ReadmeLemmas
import Verif.Props.FloatEdit
import Verif.Props.Reorder
import Verif.Props.Merge
import Verif.Props.Session

/-!
# C112-C115: the programs of the README
-/

namespace Bf2

/-! ## C112: as written they save nothing -/

section
variable {F : Type} [FCodec F] [FArith F]

theorem exportLast_bare {pl : Plat} {fs : FS} {o : Obj F} {name : Str} (h0 : name ≠ [])
    (h : '/' ∉ name) : exportLast pl fs o name = (fs, some .fileNotFoundError) := by
  have e : exportName o.filename (some name) = name := by
    rcases name with _ | ⟨c, cs⟩
    · exact absurd rfl h0
    · rfl
  unfold exportLast
  rw [C17_bare_name pl fs o (some name) true (by rw [e]; exact h)]

/-- Exporting to a bare file name, as all three programs do, changes no file.  The program always
ends with an exception, `FileNotFoundError` if it gets as far as the export. -/
theorem C112_reorder_as_written (pl : Plat) (fs : FS) (name : Str) (order : List Int)
    (bare : '/' ∉ name) : ∃ e, reorderProgram F pl fs name order = (fs, some e) ∧
      ∀ (o : Obj F) (m : Mesh F), openMesh pl fs name = .ok o →
        changeGeomsOrder o.mesh order = (m, none) → e = .fileNotFoundError := by
  unfold reorderProgram
  rcases ho : openMesh (F := F) pl fs name with e | o
  · exact ⟨e, rfl, fun _ _ h => by cases h⟩
  simp only
  rcases hm : changeGeomsOrder o.mesh order with ⟨m, _ | e⟩
  · simp only
    have h0 : name ≠ [] := by rintro rfl; cases ho
    exact ⟨_, exportLast_bare h0 bare, fun _ _ _ _ => rfl⟩
  · exact ⟨e, rfl, fun o' m' h h' => by cases h; rw [hm] at h'; cases h'⟩

theorem C112_offset_as_written (pl : Plat) (fs : FS) (name target : Str) (d : List F)
    (given : target ≠ []) (bare : '/' ∉ target) :
    ∃ e, offsetProgram pl fs name target d = (fs, some e) ∧
      ∀ (o : Obj F) (m : Mesh F), withMesh pl fs name = .ok o →
        translate o.mesh d = (m, none) → e = .fileNotFoundError := by
  unfold offsetProgram
  rcases ho : withMesh (F := F) pl fs name with e | o
  · exact ⟨e, rfl, fun _ _ h => by cases h⟩
  simp only
  rcases hm : translate o.mesh d with ⟨m, _ | e⟩
  · exact ⟨_, exportLast_bare given bare, fun _ _ _ _ => rfl⟩
  · exact ⟨e, rfl, fun o' m' h h' => by cases h; rw [hm] at h'; cases h'⟩

theorem C112_merge_as_written (pl : Plat) (fs : FS) (main secondary target : Str)
    (given : target ≠ []) (bare : '/' ∉ target) :
    ∃ e, mergeProgram F pl fs main secondary target = (fs, some e) ∧
      ∀ (o o' : Obj F) (m : Mesh F) (r : MergeRet), withMesh pl fs main = .ok o →
        withMesh pl fs secondary = .ok o' → merge o.mesh o'.mesh = (m, .ok r) →
        e = .fileNotFoundError := by
  unfold mergeProgram
  rcases ho : withMesh (F := F) pl fs main with e | o
  · exact ⟨e, rfl, fun _ _ _ _ h => by cases h⟩
  simp only
  rcases ho' : withMesh (F := F) pl fs secondary with e | o'
  · exact ⟨e, rfl, fun _ _ _ _ _ h => by cases h⟩
  simp only
  rcases hm : merge o.mesh o'.mesh with ⟨m, e | r⟩
  · exact ⟨e, rfl, fun _ _ _ _ h h' h'' => by cases h; cases h'; rw [hm] at h''; cases h''⟩
  · exact ⟨_, exportLast_bare given bare, fun _ _ _ _ _ _ _ => rfl⟩

/-- The order of the README has 18 entries.  On the mesh it is meant for, which has 22 geoms, the
program ends with `AttributeError` before the export, whatever the path. -/
theorem C112_readme_order (pl : Plat) (fs : FS) (name : Str) (o : Obj F)
    (opened : openMesh pl fs name = .ok o) (geoms : o.mesh.geoms.length = 22) :
    reorderProgram F pl fs name [0, 1, 2, 3, 4, 5, 6, 8, 9, 10, 11, 12, 15, 16, 17, 13, 7, 14] =
      (fs, some .attributeError) := by
  unfold reorderProgram
  rw [opened]
  simp only
  rw [C31_wrong_length _ _ (by rw [geoms]; decide)]

end

/-- A mesh with 22 geoms in a file of the name used in the README. -/
def kitsMesh : Mesh F64 :=
  { sesMesh with
    kind := skinnedKind, geomnum := 22, geoms := List.replicate 22 ⟨0, []⟩ }

def kitsFS : FS := fsWith [['w'], "cf_kits.skinnedMesh".toList] (exportMesh win kitsMesh).bytes

example : openMesh win kitsFS "cf_kits.skinnedMesh".toList =
      .ok ⟨"cf_kits.skinnedMesh".toList, true, kitsMesh⟩ ∧ kitsMesh.geoms.length = 22 ∧
    '/' ∉ "cf_kits.skinnedMesh".toList := by decide +kernel

/-! ## A sample: version 11, two geoms -/

/-- A geom as in `twoGeoms`, with bounds for its materials. -/
def boundedGeom (rs : List (Int × Int × Int × Int)) : Geom F64 :=
  ⟨1, [{ min := ⟨flt 0, flt 0, flt 0⟩, max := ⟨flt 0, flt 0, flt 0⟩, pivot := none, rignum := 0,
         rigs := [], nodenum := 0, nodes := [], matnum := rs.length
         materials := rs.map fun r => { (matOf r : Mat F64) with
           mmin := some ⟨flt 0, flt 0, flt 0⟩, mmax := some ⟨flt 0, flt 0, flt 0⟩ } }]⟩

def plainBox : Mesh F64 :=
  { sesMesh with
    head := ⟨0, 11, 0, 0, 0⟩, geoms := [boundedGeom [(0, 1, 0, 3)], boundedGeom [(1, 2, 3, 3)]] }

theorem plainBox_orderly : Orderly 8 plainBox := by
  have h := twoGeoms_orderly ((List.range 24).map flt) rfl
  have hg : ∀ rs, GeomWF (F := F64) staticKind 11 (boundedGeom rs) := fun rs => by
    refine ⟨rfl, fun l hl => ?_, fun l hl => ?_⟩ <;>
      simp only [boundedGeom, List.mem_singleton] at hl <;> subst hl
    · constructor <;> simp [staticKind]
    · refine ⟨by simp, fun a ha => ?_⟩
      obtain ⟨r, -, rfl⟩ := List.mem_map.1 ha
      constructor <;> simp [matOf, staticKind]
  refine ⟨⟨rfl, ?_, rfl, h.wf.vertformat, h.wf.vertices, h.wf.not_one, h.wf.index, h.wf.u2⟩,
    ⟨h.verts.pos, h.verts.size, ?_, starts_of rfl, rfl⟩, ⟨?_, starts_of rfl, rfl⟩, ⟨_, rfl⟩, rfl, rfl,
    h.size, ?_, h.fit⟩
  · intro g hg'
    simp only [plainBox, List.mem_cons, List.not_mem_nil, or_false] at hg'
    rcases hg' with rfl | rfl <;> exact hg _
  · simp [plainBox, boundedGeom, matOf, Mesh.mats, Geom.mats]
  · simp [plainBox, boundedGeom, matOf, Mesh.mats, Geom.mats]
  · exact h.vectors

theorem plainBox_usable : Usable 8 0 plainBox where
  orderly := plainBox_orderly
  position := ⟨⟨0, 0, 2, 0⟩, ⟨[], _, rfl, by decide, by decide⟩,
    ⟨⟨[], _, rfl, by decide, by decide⟩, show StartsAt 4 _ _ by decide, Or.inl rfl, by decide⟩⟩
  known := boxed_known (flt 0) []

def plainFS : FS := fsWith [['w'], "box.staticMesh".toList] (exportMesh win plainBox).bytes

theorem plainFS_opens : openMesh win plainFS "./box.staticMesh".toList =
    .ok ⟨"./box.staticMesh".toList, true, plainBox⟩ := by decide +kernel

theorem plainFS_target : Target plainFS "/w/out.staticMesh".toList [['w'], "out.staticMesh".toList] :=
  ⟨by decide, by decide +kernel, by decide +kernel⟩

/-! ## C113: the offset program -/

theorem withMesh_opened {pl : Plat} {fs : FS} {name : Str} {o : Obj F64}
    (h : openMesh pl fs name = .ok o) : withMesh pl fs name = .ok o := by
  unfold withMesh
  rw [h]
  apply enter_loaded
  unfold openMesh construct at h
  split at h
  · cases h
  · split at h
    · cases h
    · split at h
      · cases h
      · cases h; rfl

theorem openMesh_load {pl : Plat} {fs : FS} {name : Str} {o : Obj F64}
    (h : openMesh pl fs name = .ok o) : o.mesh.kind = kindOfName name ∧
    ∃ file, load pl (kindOfName name) file = .ok o.mesh := by
  obtain ⟨h1, h2⟩ := C14_loaded_kind pl fs _ _ o h
  cases h1
  refine ⟨h2, ?_⟩
  rw [← h2]
  unfold openMesh construct at h
  split at h
  · cases h
  · split at h
    · cases h
    · split at h
      · cases h
      · next hl => cases h; exact ⟨_, by rw [(C06_loaded_wf pl _ _ _ hl).2]; exact hl⟩

/-- With a target that has a slash and names a place in a directory that exists, the offset program
ends without exception and writes one file.  The file loads, and the mesh in it is the source with
each position component moved by the offset (rounded to double, then to float); every other number
of a vertex is unchanged, and so is everything else except the bounds, which hold all positions. -/
theorem C113_offset_program {pl : Plat} {fs : FS} {name target : Str} {loc : Loc} {o : Obj F64}
    {vs p : Nat} {d : List F64} (opened : openMesh pl fs name = .ok o) (usable : Usable vs p o.mesh)
    (t : Target fs target loc) (kind : kindOfName target = kindOfName name) (three : d.length = 3) :
    ∃ fs' m', offsetProgram pl fs name target d = (fs', none) ∧ OneFile fs fs' loc ∧
      (∀ fl, construct pl fs' (some target) fl = .ok ⟨target, true, m'⟩) ∧
      (∀ (v c : Nat) x, c < vs → o.mesh.vertices[v * vs + c]? = some x →
        (∀ t, p ≤ c → d[c - p]? = some t → ∃ s, m'.vertices[v * vs + c]? = some (unpackF (packF s)) ∧
          (x.isFin = true → t.isFin = true → Rounded (x.value + t.value) s)) ∧
        (c < p ∨ p + 3 ≤ c → m'.vertices[v * vs + c]? = some x)) ∧
      m'.vertices.length = o.mesh.vertices.length ∧
      (∀ z, ({ m' with vertices := [] } : Mesh F64).eraseBounds z =
        ({ o.mesh with vertices := [] } : Mesh F64).eraseBounds z) ∧
      BoundsHold vs p m' := by
  obtain ⟨hk, file, hl⟩ := openMesh_load opened
  obtain ⟨a, hfirst, hpos⟩ := usable.position
  have ord := usable.orderly
  have hfix := loaded_floats hl
  obtain ⟨l, he, hlen, hv⟩ := C22_translate_moves_positions_only ord.verts hfirst hpos.start
    (d := d) (by rw [three]; exact hpos.fits)
  have rng := C07_integers_in_range pl _ _ _ hl
  have rng' : InRange pl ({ o.mesh with vertices := l } : Mesh F64) :=
    ⟨rng.1, rng.2, rng.3, rng.4, rng.5, rng.6, rng.7, rng.8, rng.9, rng.10, rng.11, rng.12, rng.13,
      rng.14, rng.15, rng.16, rng.17⟩
  obtain ⟨fs', bytes, h1, h2, h3, h4, h5, h6⟩ :=
    save_reload (o := { o with mesh := { o.mesh with vertices := l } }) (pl := pl) t.slash t.place
      t.free (ord.set_vertices hlen) (hpos.congr (m' := { o.mesh with vertices := l }) rfl rfl)
      (usable.known.congr (m' := { o.mesh with vertices := l }) rfl rfl) rng' (hk.trans kind.symm)
  have hmesh : ∀ z, ((updateBoundaries ({ o.mesh with vertices := l } : Mesh F64)).1.map rnd32).eraseBounds z
      = ({ o.mesh with vertices := l.map rnd32 } : Mesh F64).eraseBounds z := by
    intro z
    rw [update_map_erase]
    have : ({ o.mesh with vertices := l } : Mesh F64).map rnd32 =
        { o.mesh.map rnd32 with vertices := l.map rnd32 } := rfl
    rw [this, fixed_map hfix]
  have hverts : ((updateBoundaries ({ o.mesh with vertices := l } : Mesh F64)).1.map rnd32).vertices
      = l.map rnd32 := congrArg Mesh.vertices (hmesh Box.zero.min)
  refine ⟨fs', _, ?_, ⟨⟨_, h2⟩, h4, h3⟩, h5, ?_, ?_, ?_, ?_⟩
  · unfold offsetProgram
    rw [withMesh_opened opened]
    simp only
    rw [he]
    exact h1
  · intro v c x hc hx
    simp only [hverts, List.getElem?_map]
    obtain ⟨c1, c2⟩ := hv v c x hc hx
    refine ⟨fun t h0 ht => ⟨F64.add x t, ?_, add_rounded⟩, fun h0 => ?_⟩
    · rw [c1 t h0 ht]; rfl
    · rw [c2 (by rw [three]; exact h0)]
      have : x ∈ o.mesh.floats := by
        simp only [Mesh.floats, List.mem_append]
        exact .inl (.inl (List.mem_of_getElem? hx))
      rw [Option.map_some, hfix x this]
  · rw [hverts, List.length_map, hlen]
  · intro z
    exact congrArg (fun m : Mesh F64 => ({ m with vertices := [] } : Mesh F64)) (hmesh z)
  · intro hb
    refine h6 ?_
    have e := update_format ({ o.mesh with vertices := l } : Mesh F64)
    unfold Bounded at hb ⊢
    have e1 : ((updateBoundaries ({ o.mesh with vertices := l } : Mesh F64)).1.map rnd32).kind =
      o.mesh.kind := e.kind
    have e2 : ((updateBoundaries ({ o.mesh with vertices := l } : Mesh F64)).1.map rnd32).head =
      o.mesh.head := e.head
    rw [e1, e2] at hb
    exact hb

example : openMesh win plainFS "./box.staticMesh".toList =
      .ok ⟨"./box.staticMesh".toList, true, plainBox⟩ ∧ Usable 8 0 plainBox ∧
    Target plainFS "/w/out.staticMesh".toList [['w'], "out.staticMesh".toList] ∧
    kindOfName "/w/out.staticMesh".toList = kindOfName "./box.staticMesh".toList ∧
    Bounded plainBox :=
  ⟨plainFS_opens, plainBox_usable, plainFS_target, by decide +kernel, rfl, rfl⟩

/-! ## C114: the reorder program -/

/-- The reorder program, given a path with a slash and an order that names every geom once, ends
without exception and overwrites that file only.  The file loads, and holds the mesh with its geoms
in the new order, each with its own shaders, vertices and indices; only bounds differ, and they hold
all positions. -/
theorem C114_reorder_program {pl : Plat} {fs : FS} {path : Str} {loc : Loc} {o : Obj F64}
    {vs p : Nat} {order : List Int} {js : List Nat} (opened : openMesh pl fs path = .ok o)
    (usable : Usable vs p o.mesh) (t : Target fs path loc)
    (perm : Permutes o.mesh.geoms.length order js) :
    ∃ fs' m', reorderProgram F64 pl fs path order = (fs', none) ∧ OneFile fs fs' loc ∧
      (∀ fl, construct pl fs' (some path) fl = .ok ⟨path, true, m'⟩) ∧
      (∃ m1 : Mesh F64, (∀ z, m'.eraseBounds z = m1.eraseBounds z) ∧
        m1 = { o.mesh with geoms := m1.geoms, vertices := m1.vertices, index := m1.index } ∧
        m1.geoms.length = o.mesh.geoms.length ∧
        ∀ (k j : Nat), js[k]? = some j → ∃ g g', o.mesh.geoms[j]? = some g ∧
          m1.geoms[k]? = some g' ∧ GeomKept vs o.mesh m1 g g') ∧
      BoundsHold vs p m' := by
  obtain ⟨hk, file, hl⟩ := openMesh_load opened
  obtain ⟨a, -, hpos⟩ := usable.position
  have ord := usable.orderly
  obtain ⟨ix, hix⟩ := ord.many
  have rng := C07_integers_in_range pl _ _ _ hl
  obtain ⟨m1, he, hrest, hkept, -, -, -, -, hverts, -⟩ :=
    changeGeomsOrder_kept ord.inside hix (ord.verts.sum_le ord.size) perm
  have ord1 : Orderly vs m1 := by
    have := ord.reorder perm
    rwa [he] at this
  have same : SameFormat o.mesh m1 := by
    have := reorder_format o.mesh order
    rwa [he] at this
  obtain ⟨m1', he', hrest', hlen', hg'⟩ :=
    C29_reorder_keeps_geoms ord.inside hix (ord.verts.sum_le ord.size) perm
  obtain rfl : m1' = m1 := by rw [he] at he'; cases he'; rfl
  have pieces := reorder_pieces hkept
  have hvn : m1'.vertnum = o.mesh.vertnum := by rw [hrest]
  have hin : m1'.indexnum = o.mesh.indexnum := by rw [hrest]
  have rng1 := pieces.inRange same ord1 rng (by rw [hvn]; exact rng.vertnum)
    (by rw [hin]; exact rng.indexnum)
  have hfix : m1'.map rnd32 = m1' := by
    refine fixed_map fun x hx => ?_
    rcases pieces.floats (o := o.mesh) (fun x hx => .inl (reorder_vertices hverts x hx)) x hx with h | h
    all_goals exact loaded_floats hl x h
  obtain ⟨fs', bytes, h1, h2, h3, h4, h5, h6⟩ :=
    save_reload (o := { o with mesh := m1' }) (pl := pl) t.slash t.place t.free ord1
      (hpos.congr (m' := m1') same.vattrs same.vertformat)
      (usable.known.congr (m' := m1') same.vattrs same.vertformat) rng1 (same.kind.trans hk)
  refine ⟨fs', _, ?_, ⟨⟨_, h2⟩, h4, h3⟩, h5, ⟨m1', fun z => ?_, hrest', hlen', hg'⟩, ?_⟩
  · unfold reorderProgram
    rw [opened]
    simp only
    rw [he]
    exact h1
  · rw [update_map_erase, hfix]
  · intro hb
    refine h6 ?_
    have e := update_format m1'
    unfold Bounded at hb ⊢
    have e1 : ((updateBoundaries m1').1.map rnd32).kind = m1'.kind := e.kind
    have e2 : ((updateBoundaries m1').1.map rnd32).head = m1'.head := e.head
    rw [e1, e2] at hb
    exact hb

example : openMesh win plainFS "./box.staticMesh".toList =
      .ok ⟨"./box.staticMesh".toList, true, plainBox⟩ ∧ Usable 8 0 plainBox ∧
    Target plainFS "./box.staticMesh".toList [['w'], "box.staticMesh".toList] ∧
    Permutes plainBox.geoms.length [-1, 0] [1, 0] :=
  ⟨plainFS_opens, plainBox_usable, ⟨by decide, by decide +kernel, by decide +kernel⟩,
    ⟨.cons (by unfold Names; decide) (.cons (by unfold Names; decide) .nil), by decide⟩⟩

/-! ## C115: the merge program -/

/-- The merge program, given a target with a slash and two meshes that may be merged and whose counts
still fit, ends without exception and writes one file.  The file loads, and holds the merged mesh:
each material with its own vertices and indices, then those of its partner, shifted; only bounds
differ, and they hold all positions. -/
theorem C115_merge_program {pl : Plat} {fs : FS} {main secondary target : Str} {loc : Loc}
    {o o2 : Obj F64} {vs p : Nat} (opened : openMesh pl fs main = .ok o)
    (opened2 : openMesh pl fs secondary = .ok o2) (usable : Usable vs p o.mesh)
    (orderly2 : Orderly vs o2.mesh) (compat : Compatible o.mesh o2.mesh)
    (small : ¬ Overflows o.mesh o2.mesh)
    (size : o.mesh.vertices.length + o2.mesh.vertices.length ≤ 2 ^ 53)
    (vertnum : IsLong pl (o.mesh.vertnum + o2.mesh.vertnum))
    (indexnum : IsLong pl (o.mesh.indexnum + o2.mesh.indexnum))
    (t : Target fs target loc) (kind : kindOfName target = kindOfName main) :
    ∃ fs' m', mergeProgram F64 pl fs main secondary target = (fs', none) ∧ OneFile fs fs' loc ∧
      (∀ fl, construct pl fs' (some target) fl = .ok ⟨target, true, m'⟩) ∧
      (∃ m1 : Mesh F64, (∀ z, m'.eraseBounds z = m1.eraseBounds z) ∧
        m1 = { o.mesh with
          geoms := m1.geoms, vertices := m1.vertices, index := m1.index,
          vertnum := o.mesh.vertnum + o2.mesh.vertnum,
          indexnum := o.mesh.indexnum + o2.mesh.indexnum } ∧
        m1.geoms.map Geom.shape = o.mesh.geoms.map Geom.shape ∧
        ∀ (i : Nat) a b, o.mesh.mats[i]? = some a → o2.mesh.mats[i]? = some b →
          ∃ a', m1.mats[i]? = some a' ∧ MatMerged vs o.mesh o2.mesh m1 a b a') ∧
      BoundsHold vs p m' := by
  obtain ⟨hk, file, hl⟩ := openMesh_load opened
  obtain ⟨hk2, file2, hl2⟩ := openMesh_load opened2
  obtain ⟨a, -, hpos⟩ := usable.position
  have ord := usable.orderly
  obtain ⟨ix, hix⟩ := ord.many
  obtain ⟨ox, hox⟩ := orderly2.many
  have rng := C07_integers_in_range pl _ _ _ hl
  obtain ⟨m1, he, hm⟩ := merge_ok compat ord.inside orderly2.inside hix hox small
  obtain ⟨c1, c2, c3⟩ := hm.counts ord orderly2 compat
  obtain ⟨ord1, same⟩ := ord.merge_any orderly2 he (by omega)
  obtain ⟨hrest, hshape, hmats⟩ := C35_merge_concatenates ord.inside orderly2.inside hix hox he
  have rng1 := hm.pieces.inRange same ord1 rng (by rw [c1]; exact vertnum) (by rw [c2]; exact indexnum)
  have hfix : m1.map rnd32 = m1 := by
    refine fixed_map fun x hx => ?_
    rcases hm.pieces.floats hm.from_vertices x hx with h | h
    · exact loaded_floats hl x h
    · exact loaded_floats hl2 x h
  obtain ⟨fs', bytes, h1, h2, h3, h4, h5, h6⟩ :=
    save_reload (o := { o with mesh := m1 }) (pl := pl) t.slash t.place t.free ord1
      (hpos.congr (m' := m1) same.vattrs same.vertformat)
      (usable.known.congr (m' := m1) same.vattrs same.vertformat) rng1
      ((same.kind.trans hk).trans kind.symm)
  refine ⟨fs', _, ?_, ⟨⟨_, h2⟩, h4, h3⟩, h5, ⟨m1, fun z => ?_, ?_, hshape, hmats⟩, ?_⟩
  · unfold mergeProgram
    rw [withMesh_opened opened]
    simp only
    rw [withMesh_opened opened2]
    simp only
    rw [he]
    exact h1
  · rw [update_map_erase, hfix]
  · rw [← c1, ← c2]
    exact hrest
  · intro hb
    refine h6 ?_
    have e := update_format m1
    unfold Bounded at hb ⊢
    have e1 : ((updateBoundaries m1).1.map rnd32).kind = m1.kind := e.kind
    have e2 : ((updateBoundaries m1).1.map rnd32).head = m1.head := e.head
    rw [e1, e2] at hb
    exact hb

/-- The file with itself, read twice, as in the README. -/
example : openMesh win plainFS "./box.staticMesh".toList =
      .ok ⟨"./box.staticMesh".toList, true, plainBox⟩ ∧ Usable 8 0 plainBox ∧
    Compatible plainBox plainBox ∧ ¬ Overflows plainBox plainBox ∧
    plainBox.vertices.length + plainBox.vertices.length ≤ 2 ^ 53 ∧
    IsLong win (plainBox.vertnum + plainBox.vertnum) ∧
    IsLong win (plainBox.indexnum + plainBox.indexnum) ∧
    Target plainFS "/w/out.staticMesh".toList [['w'], "out.staticMesh".toList] ∧
    kindOfName "/w/out.staticMesh".toList = kindOfName "./box.staticMesh".toList := by
  refine ⟨plainFS_opens, plainBox_usable, (canMerge_true _ _).1 (by decide +kernel), ?_, by decide,
    by unfold IsLong; decide, by unfold IsLong; decide, plainFS_target, by decide +kernel⟩
  rintro ⟨i, a, b, v, ha, hb, hv, h⟩
  have h1 : a.vnum ≤ 2 := by
    have : ∀ a ∈ plainBox.mats, a.vnum ≤ 2 := by decide +kernel
    exact this a (List.mem_of_getElem? ha)
  have h2 : v ≤ 1 := by
    have : ∀ b ∈ plainBox.mats, ∀ v ∈ indexData plainBox b, v ≤ 1 := by decide +kernel
    exact this b (List.mem_of_getElem? hb) v hv
  omega

end Bf2
