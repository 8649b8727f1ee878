import Verif.SaveBoundsLemmas
import Verif.Props.Format
import Verif.Props.Bounds
import Verif.Props.Readme

/-!
# C138: the bounds in a saved file

`m.export(f)` updates the bounds and writes the mesh; `s = VisibleMesh(f)` reads it again. Numbers
are rounded to binary32 on the way, so the bounds in the file need not be the bounds of the
positions in the file. They are, but for the sign of zeros.
-/

namespace Bf2

section
variable {pl : Plat} {vs o : Nat} {m s : Mesh F64} {bs : Bytes}

/-- Saving what was read updates the bounds to those of the file without the signs of zeros. -/
theorem C138_second_update (w : MeshWF m) (b : Bounded m) (u : Boundable vs o m)
    (he : exportMesh pl (updateBoundaries m).1 = ⟨bs, none⟩) (hl : load pl m.kind bs = .ok s) :
    updateBoundaries s = (s.mapBounds plainZero, none) := saved_update w b u he hl

/-- **C138.** The bounds in the file are the box around the origin and the positions in the file,
with `-0.0` for some of the zeros. -/
theorem C138_saved_box (w : MeshWF m) (b : Bounded m) (u : Boundable vs o m)
    (he : exportMesh pl (updateBoundaries m).1 = ⟨bs, none⟩) (hl : load pl m.kind bs = .ok s) :
    BoundsAre (fun mn mx => Hull (mn.map plainZero) (mx.map plainZero)) vs o s s := by
  have h := saved_update w b u he hl
  have e := saved_eq w he hl
  have u' : Boundable vs o s := by rw [e]; exact u.update.map _
  have f := update_format m
  have b' : Bounded s := by
    rw [e]; exact ⟨by simpa [Mesh.map, f.kind] using b.1, by simpa [Mesh.map, f.head] using b.2⟩
  obtain ⟨p, hp⟩ := u'.position
  have h1 := update_hull b' u'.size hp u'.inside h
  unfold BoundsAre at h1 ⊢
  simp only [Mesh.mapBounds, List.forall₂_map_right_iff] at h1
  refine h1.imp fun g g' h2 => ?_
  refine h2.imp fun l l' h3 => ?_
  obtain ⟨h3, h4⟩ := h3
  simp only [Lod.mapBounds, List.forall₂_map_right_iff] at h3 h4
  refine ⟨h3, h4.imp fun a a' h5 => ?_⟩
  obtain ⟨mn, mx, e1, e2, h6⟩ := h5
  rw [Option.map_eq_some_iff] at e1 e2
  obtain ⟨mn', e1, rfl⟩ := e1
  obtain ⟨mx', e2, rfl⟩ := e2
  exact ⟨mn', mx', e1, e2, h6⟩

/-- Saving what was read writes the same file again, unless a material reaches below zero on some
axis by no more than `2 ** -150`. -/
theorem C138_same_bytes_iff (w : MeshWF m) (b : Bounded m) (u : Boundable vs o m)
    (he : exportMesh pl (updateBoundaries m).1 = ⟨bs, none⟩) (hl : load pl m.kind bs = .ok s) :
    exportMesh pl (updateBoundaries s).1 = ⟨bs, none⟩ ↔
      ∀ a ∈ m.mats, ∀ c, ¬ JustBelow (PosOf vs o m a) c := by
  have e := saved_eq w he hl
  obtain ⟨p, hp⟩ := u.position
  rw [← rounded_self (update_hull b u.size hp u.inside u.ok), saved_update w b u he hl, ← e]
  have ws := C06_loaded_wf pl m.kind bs s hl
  have idem : ∀ x, rnd32 (rnd32 x) = rnd32 x := fun x => by
    show unpackF (packF (unpackF (packF x))) = unpackF (packF x)
    rw [packF_unpackF_packF]
  constructor
  · intro h
    have w' : MeshWF (s.mapBounds plainZero) := update_wf (m := s) (by rw [saved_update w b u he hl]) ws.1
    have h1 := C02_reload_of_export pl _ bs w' h
    have h2 : (s.mapBounds plainZero).map rnd32 = s.mapBounds plainZero := by
      rw [e]; exact mapBounds_map (f := rnd32) (g := plainZero) plainZero_rnd32 idem _
    have h3 : load pl m.kind bs = .ok ((s.mapBounds plainZero).map rnd32) := by
      rw [← ws.2]; exact h1
    rw [h2, hl] at h3
    exact (Except.ok.inj h3).symm
  · intro h
    rw [h, e]
    obtain ⟨m', h1, h2⟩ := C03_export_fixpoint pl _ bs (update_wf rfl w) he
    rw [(update_format m).kind, hl] at h1
    rw [← e, Except.ok.inj h1]
    exact h2

/-- It is saved without an error, and the file then written is written again and again: after the
second saving nothing changes. -/
theorem C138_third (w : MeshWF m) (b : Bounded m) (u : Boundable vs o m)
    (he : exportMesh pl (updateBoundaries m).1 = ⟨bs, none⟩) (hl : load pl m.kind bs = .ok s) :
    ∃ bs', exportMesh pl (updateBoundaries s).1 = ⟨bs', none⟩ ∧
      load pl m.kind bs' = .ok (s.mapBounds plainZero) ∧
      updateBoundaries (s.mapBounds plainZero) = (s.mapBounds plainZero, none) ∧
      exportMesh pl (s.mapBounds plainZero) = ⟨bs', none⟩ := by
  have e := saved_eq w he hl
  have hu := saved_update w b u he hl
  have ws := C06_loaded_wf pl m.kind bs s hl
  have idem : ∀ x, rnd32 (rnd32 x) = rnd32 x := fun x => by
    show unpackF (packF (unpackF (packF x))) = unpackF (packF x)
    rw [packF_unpackF_packF]
  obtain ⟨bs', h1⟩ := update_exports hl (by
    obtain ⟨l, h⟩ := exported_many he
    exact ⟨l, by rw [e]; exact h⟩)
  refine ⟨bs', h1, ?_, ?_, by rw [hu] at h1; exact h1⟩
  · have w' : MeshWF (s.mapBounds plainZero) := update_wf (m := s) (by rw [hu]) ws.1
    have h2 : (s.mapBounds plainZero).map rnd32 = s.mapBounds plainZero := by
      rw [e]; exact mapBounds_map (f := rnd32) (g := plainZero) plainZero_rnd32 idem _
    rw [hu] at h1
    have h3 := C02_reload_of_export pl _ bs' w' h1
    rw [← ws.2]
    exact h3.trans (congrArg Except.ok h2)
  · have h2 := update_idem s
    rw [hu] at h2
    exact h2

/-- What was read from a file and not edited since: saving and reading gives a mesh which is saved to
the same bytes. -/
theorem C138_loaded {k : Kind} {file : Bytes} (h : load pl k file = .ok m) (b : Bounded m)
    (u : Boundable vs o m) (hi : m.indexnum ≠ 1) :
    ∃ bs, ∃ s : Mesh F64, exportMesh pl (updateBoundaries m).1 = ⟨bs, none⟩ ∧ load pl k bs = .ok s ∧
      exportMesh pl (updateBoundaries s).1 = ⟨bs, none⟩ := by
  obtain ⟨w, rfl⟩ := C06_loaded_wf pl k file m h
  obtain ⟨bs, he⟩ := update_exports h (by
    have h1 := w.index
    cases hx : m.index with
    | many l => exact ⟨l, rfl⟩
    | one a => rw [hx] at h1; exact absurd h1 hi)
  have hl := C02_reload_of_export pl _ bs (update_wf rfl w) he
  rw [(update_format m).kind] at hl
  refine ⟨bs, _, he, hl, (C138_same_bytes_iff w b u he hl).2 ?_⟩
  have fixed : m.map rnd32 = m := by
    obtain ⟨r, -, rfl⟩ := load_ok_map.1 h
    rw [Mesh.map_map]
    exact congrArg (fun f => r.map f) (funext unpackF_packF_unpackF)
  rintro a - c ⟨⟨x, hx, hlt⟩, hall⟩
  have h2 : PosOf vs o (m.map rnd32) (a.map rnd32) x := by rw [fixed]; exact hx
  obtain ⟨y, -, rfl⟩ := posOf_map_iff.1 h2
  have h3 := (rnd32_negZero hlt).2 (hall _ hx)
  have h4 : rnd32 ((y.map rnd32).comp c) = (y.map rnd32).comp c := by
    rw [comp_map]
    show unpackF (packF (unpackF (packF _))) = unpackF (packF _)
    rw [packF_unpackF_packF]
  rw [← h4, h3] at hlt
  exact absurd hlt (by decide)

/-- So it is for a mesh without such bounds, edited or not. -/
theorem C138_unbounded (w : MeshWF m) (b : ¬ Bounded m) (u : Boundable vs o m)
    (he : exportMesh pl (updateBoundaries m).1 = ⟨bs, none⟩) (hl : load pl m.kind bs = .ok s) :
    updateBoundaries s = (s, none) ∧ exportMesh pl (updateBoundaries s).1 = ⟨bs, none⟩ := by
  have e := saved_eq w he hl
  have u' : Boundable vs o s := by rw [e]; exact u.update.map _
  have f := update_format m
  have b' : ¬ Bounded s := by
    rw [e]
    intro h
    exact b ⟨by rw [← f.kind]; exact h.1, by rw [← f.head]; exact h.2⟩
  have h1 := update_unbounded b u.ok
  have h2 := update_unbounded b' u'.ok
  have h3 : (updateBoundaries s).1 = s := by
    rw [h2, e, h1]
    simp only [Mesh.map, List.map_map, Mesh.mk.injEq, true_and, and_true]
    refine List.map_congr_left fun g _ => ?_
    simp only [Function.comp, Geom.map, List.map_map, Geom.mk.injEq, true_and]
    refine List.map_congr_left fun l _ => ?_
    simp only [Function.comp, Lod.map, Vec3.map, rnd32_zero]
  have h4 := u'.ok
  rw [h3] at h4 ⊢
  refine ⟨h4, ?_⟩
  obtain ⟨m', k1, k2⟩ := C03_export_fixpoint pl _ bs (update_wf rfl w) he
  rw [f.kind, hl] at k1
  rw [Except.ok.inj k1]
  exact k2

end

/-! ## A mesh moved just below zero -/

/-- `plainBox` with its first vertex at `x = 2 ** -149`. -/
def tinyBox : Mesh F64 :=
  { plainBox with vertices := F64.mk' false (874 * 2 ^ 52) :: plainBox.vertices.tail }

/-- `-(2 ** -149 + 2 ** -160)` -/
def tinyMove : F64 := F64.mk' true (874 * 2 ^ 52 + 2 ^ 41)

/-- `tinyBox`, read from a file and moved by `tinyMove` along x: the first vertex is at
`-2 ** -160`. -/
def tinyMoved : Mesh F64 := (translate tinyBox [tinyMove, F64.zero, F64.zero]).1

theorem tinyMoved_loads : load win staticKind (exportMesh win tinyBox).bytes = .ok tinyBox ∧
    translate tinyBox [tinyMove, F64.zero, F64.zero] = (tinyMoved, none) ∧
    tinyMoved.vertices.head? = some (F64.mk' true (863 * 2 ^ 52)) := by
  decide +kernel

theorem tinyMoved_eq : tinyMoved =
    { plainBox with vertices := F64.mk' true (863 * 2 ^ 52) :: tinyMoved.vertices.tail } := by
  decide +kernel

theorem tinyMoved_wf : MeshWF tinyMoved := by
  have h := plainBox_orderly.wf
  rw [tinyMoved_eq]
  have hl : (F64.mk' true (863 * 2 ^ 52) :: tinyMoved.vertices.tail).length = 24 := by decide +kernel
  exact ⟨h.geoms, h.geom, h.vattrs, h.vertformat, by
      show ((_ : Nat) : Int) = plainBox.announced
      rw [hl]; decide +kernel, by
      show List.length _ ≠ 1
      rw [hl]; decide, h.index, h.u2⟩

theorem tinyMoved_bounded : Bounded tinyMoved := ⟨by decide +kernel, by decide +kernel⟩

theorem tinyMoved_kind : tinyMoved.kind = staticKind := by decide +kernel

theorem tinyMoved_boundable : Boundable 8 0 tinyMoved := by
  obtain ⟨p, -, hp⟩ := plainBox_usable.position
  have hl : tinyMoved.vertices.length = plainBox.vertices.length := by decide +kernel
  have e := tinyMoved_eq
  refine ⟨by rw [e]; exact plainBox_orderly.verts.size, ⟨p, hp.congr (by rw [e]) (by rw [e])⟩,
    plainBox_usable.known.congr (by rw [e]) (by rw [e]), fun a ha => ?_⟩
  have ha' : a ∈ plainBox.mats := by rw [e] at ha; exact ha
  obtain ⟨h1, h2, h3⟩ := plainBox_orderly.verts.inside a ha'
  exact ⟨h1, h2, by rw [hl]; exact h3⟩

theorem plainBox_boundable : Boundable 8 0 plainBox :=
  ⟨plainBox_orderly.verts.size, plainBox_usable.position.imp fun _ h => h.2, plainBox_usable.known,
    plainBox_orderly.verts.inside⟩

/-- The bytes of a mesh saved with updated bounds. -/
def tinySaved : Bytes := (exportMesh win (updateBoundaries tinyMoved).1).bytes

/-- A mesh read from a file, moved, saved, read and saved again: the two files differ, in the sign of
a zero. -/
theorem C138_may_differ : ∃ (file : Bytes) (m m' s : Mesh F64) (d : List F64) (bs bs' : Bytes),
    load win staticKind file = .ok m ∧ translate m d = (m', none) ∧
    MeshWF m' ∧ Bounded m' ∧ Boundable 8 0 m' ∧
    exportMesh win (updateBoundaries m').1 = ⟨bs, none⟩ ∧ load win staticKind bs = .ok s ∧
    exportMesh win (updateBoundaries s).1 = ⟨bs', none⟩ ∧ bs' ≠ bs ∧
    (∃ l ∈ s.geoms.flatMap (·.lods), l.min.x = negZero) ∧
    ∃ l ∈ (updateBoundaries s).1.geoms.flatMap (·.lods), l.min.x = F64.zero := by
  have he : exportMesh win (updateBoundaries tinyMoved).1 = ⟨tinySaved, none⟩ := by decide +kernel
  have hl : load win staticKind tinySaved = .ok ((updateBoundaries tinyMoved).1.map rnd32) := by
    decide +kernel
  obtain ⟨bs', h1, -, -, -⟩ := C138_third (o := 0) (vs := 8) (pl := win) tinyMoved_wf
    tinyMoved_bounded tinyMoved_boundable he (by rw [tinyMoved_kind]; exact hl)
  refine ⟨_, _, _, _, _, _, bs', tinyMoved_loads.1, tinyMoved_loads.2.1, tinyMoved_wf,
    tinyMoved_bounded, tinyMoved_boundable, he, hl, h1, ?_, ?_, ?_⟩
  · rintro rfl
    exact absurd h1 (by decide +kernel)
  · decide +kernel
  · decide +kernel

/-- `plainBox` has its hypotheses too, and is saved to the same bytes. -/
example : MeshWF plainBox ∧ Bounded plainBox ∧ Boundable 8 0 plainBox ∧ plainBox.indexnum ≠ 1 ∧
    load win staticKind (exportMesh win plainBox).bytes = .ok plainBox ∧
    exportMesh win (updateBoundaries plainBox).1 ≠ exportMesh win plainBox ∧
    (exportMesh win (updateBoundaries plainBox).1).err = none :=
  ⟨plainBox_orderly.wf, ⟨rfl, rfl⟩, plainBox_boundable, by decide, by decide +kernel,
    by decide +kernel, by decide +kernel⟩

/-- A material of `tinyMoved` reaches just below zero. -/
example : ∃ a ∈ tinyMoved.mats, ∃ c, JustBelow (PosOf 8 0 tinyMoved a) c := by
  by_contra h
  push Not at h
  have he : exportMesh win (updateBoundaries tinyMoved).1 = ⟨tinySaved, none⟩ := by decide +kernel
  have hl : load win tinyMoved.kind tinySaved = .ok ((updateBoundaries tinyMoved).1.map rnd32) := by
    decide +kernel
  exact absurd ((C138_same_bytes_iff tinyMoved_wf tinyMoved_bounded tinyMoved_boundable he hl).2 h)
    (by decide +kernel)

/-- A mesh without bounds. -/
example : MeshWF sesMesh ∧ ¬ Bounded sesMesh ∧ Boundable 8 0 sesMesh ∧
    (exportMesh win (updateBoundaries sesMesh).1).err = none := by
  have h := twoGeoms_orderly ((List.range 24).map flt) rfl
  obtain ⟨p, -, hp⟩ := plainBox_usable.position
  exact ⟨h.wf, fun hb => absurd hb.2 (by decide), ⟨h.verts.size, ⟨p, hp.congr rfl rfl⟩,
    plainBox_usable.known.congr rfl rfl, h.verts.inside⟩, by decide +kernel⟩

end Bf2
