import Verif.ColEditLemmas
import Verif.ColSample
import Verif.BoundsLemmas

/-!
# C64-C69: moving and merging collision meshes
-/

namespace Bf2

/-! ## C64: translate -/

section
variable {F φ : Type} [FArith F]

/-- **C64.** Every vertex of every lod is moved by the offset, and nothing but the vertices changes:
faces, counts and the bounds stay as they were. -/
theorem C64_translate (off : Vec3 F) (m : ColMesh F φ) :
    (colTranslate off m).eraseVertices = m.eraseVertices ∧
    ∀ i j k (n : Nat), (((colTranslate off m).lodAt i j k).bind fun l => l.vertices[n]?) =
      ((m.lodAt i j k).bind fun l => l.vertices[n]?).map fun v =>
        (⟨FArith.add v.x off.x, FArith.add v.y off.y, FArith.add v.z off.z⟩ : Vec3 F) := by
  refine ⟨colTranslate_erase off m, fun i j k n => ?_⟩
  rw [colTranslate_lodAt]
  rcases m.lodAt i j k with _ | l
  · rfl
  · simp only [Option.map_some, Option.bind_some, List.getElem?_map]
    rfl

end

/-- **C64.** With exact arithmetic, two moves are one move by the sum, and a move can be undone. -/
theorem C64_translate_composes {φ : Type} (o o' : Vec3 ℝ) (m : ColMesh ℝ φ) :
    colTranslate o' (colTranslate o m) = colTranslate ⟨o.x + o'.x, o.y + o'.y, o.z + o'.z⟩ m ∧
    colTranslate ⟨-o.x, -o.y, -o.z⟩ (colTranslate o m) = m := by
  have h1 : ∀ v : Vec3 ℝ, (v.plus o).plus o' = v.plus ⟨o.x + o'.x, o.y + o'.y, o.z + o'.z⟩ := by
    intro v
    simp only [Vec3.plus, FArith.add, Vec3.mk.injEq]
    exact ⟨by ring, by ring, by ring⟩
  have h2 : ∀ v : Vec3 ℝ, (v.plus o).plus ⟨-o.x, -o.y, -o.z⟩ = v := by
    intro v
    simp only [Vec3.plus, FArith.add]
    rw [add_neg_cancel_right, add_neg_cancel_right, add_neg_cancel_right]
  constructor
  · simp only [colTranslate, List.map_map, Function.comp_def, h1]
  · simp only [colTranslate, List.map_map, Function.comp_def, h2, List.map_id']

/-- **C64.** The bounds are stale afterwards: a vertex on the upper face of its box is outside after a
move in that direction. -/
theorem C64_bounds_stale {φ : Type} (o : Vec3 ℝ) (m : ColMesh ℝ φ) {i j k n : Nat} {l : ColLod ℝ φ}
    {v : Vec3 ℝ} (hl : m.lodAt i j k = some l) (hv : l.vertices[n]? = some v) (hx : v.x = l.max.x)
    (ho : 0 < o.x) :
    ∃ l', (colTranslate o m).lodAt i j k = some l' ∧ l'.max = l.max ∧
      ∃ v', l'.vertices[n]? = some v' ∧ l'.max.x < v'.x := by
  rw [colTranslate_lodAt, hl]
  refine ⟨_, rfl, rfl, v.plus o, by simp [hv], ?_⟩
  show l.max.x < v.x + o.x
  rw [hx]; linarith

/-- The small mesh moved by (1, 0, 0): its second vertex, at x = 1 = max.x, goes to 2. -/
example :
    let m : ColMesh F64 ColFace := triCol.obj
    ((colTranslate ⟨flt 1, flt 0, flt 0⟩ m).lods.map fun l => (l.vertices, l.max)) =
      [([⟨flt 1, flt 0, flt 0⟩, ⟨flt 2, flt 0, flt 0⟩, ⟨flt 1, flt 2, (flt 3).negate⟩],
        ⟨flt 1, flt 2, flt 0⟩),
       ([⟨flt 1, flt 0, flt 0⟩, ⟨flt 2, flt 0, flt 0⟩, ⟨flt 1, flt 2, (flt 3).negate⟩],
        ⟨flt 1, flt 2, flt 0⟩)] := by
  decide +kernel

/-! ## C65: merge -/

section
variable {F : Type} [FArith F]

/-- **C65.** Merging keeps header, counts and number of lods of the target.  A lod without counterpart
stays as it is; every other one gets the vertices, faces and data of its counterpart appended, with the
counts added, and both pairs of bounds extended to all vertices. -/
theorem C65_merge [LawfulLt F] {h h' : Heap} {a b c : ColMesh F Nat}
    (hm : colMerge h a b = (h', c, none)) :
    c.skeleton = a.skeleton ∧
    ∀ i j k, (b.lodAt i j k = none → c.lodAt i j k = a.lodAt i j k) ∧
      ∀ y, b.lodAt i j k = some y → ∃ x z, a.lodAt i j k = some x ∧ c.lodAt i j k = some z ∧
        Joined x y z ∧ Extended x.min x.max z.vertices z.min z.max ∧
        Extended x.bmin x.bmax z.vertices z.bmin z.bmax := by
  refine ⟨colMerge_skeleton hm, fun i j k => ?_⟩
  rcases colMerge_lods hm i j k with ⟨e1, e2, e3⟩ | ⟨x, e1, e2, e3⟩ | ⟨x, y, z, e1, e2, e3, g, rfl⟩
  · rw [e1, e2, e3]; exact ⟨fun _ => rfl, fun y hy => by cases hy⟩
  · rw [e1, e2, e3]; exact ⟨fun _ => rfl, fun y hy => by cases hy⟩
  · rw [e1, e2, e3]
    refine ⟨fun hy => (by cases hy), fun y hy => ?_⟩
    cases hy
    exact ⟨x, _, rfl, rfl, joined_lod g x y, fold_extended _ _ _, fold_extended _ _ _⟩

/-- **C65**, the face objects: each is moved once for every time it occurs in a lod of the merged mesh,
by the vertex count of that lod. -/
theorem C65_face_objects {h h' : Heap} {a b c : ColMesh F Nat}
    (hm : colMerge h a b = (h', c, none)) (x : Nat) :
    h' x = (h x).shift (movedBy b.lods x) := (colMerge_ok hm).2.2 x

/-- **C65**, two meshes that share no face object (as two loaded ones): the faces seen in a merged lod
are its own, unchanged, and then those of its counterpart with their corners moved by the vertex count of
the counterpart; the faces of lods without counterpart are unchanged. -/
theorem C65_faces_seen {h h' : Heap} {a b c : ColMesh F Nat}
    (hm : colMerge h a b = (h', c, none)) (hn : b.allFaces.Nodup)
    (hd : ∀ x ∈ a.allFaces, x ∉ b.allFaces) (i j k : Nat) :
    (∀ x, b.lodAt i j k = none → a.lodAt i j k = some x → c.lodAt i j k = some x ∧
      x.faces.map h' = x.faces.map h) ∧
    ∀ x y, a.lodAt i j k = some x → b.lodAt i j k = some y → ∃ z, c.lodAt i j k = some z ∧
      z.faces.map h' = x.faces.map h ++ y.faces.map fun f =>
        { h f with v1 := (h f).v1 + y.vertnum, v2 := (h f).v2 + y.vertnum
                   v3 := (h f).v3 + y.vertnum } := by
  have key : ∀ x, a.lodAt i j k = some x → x.faces.map h' = x.faces.map h := by
    intro x hx
    refine List.map_congr_left fun f hf => ?_
    rw [C65_face_objects hm, movedBy_zero, ColFace.shift_zero]
    exact hd f (List.mem_flatMap.2 ⟨x, mem_lods_iff.2 ⟨i, j, k, hx⟩, hf⟩)
  rcases colMerge_lods hm i j k with ⟨e1, e2, e3⟩ | ⟨x, e1, e2, e3⟩ | ⟨x, y, z, e1, e2, e3, g, rfl⟩
  · rw [e1]; exact ⟨fun _ _ h => (by cases h), fun _ _ h => (by cases h)⟩
  · rw [e1, e2, e3]
    refine ⟨fun x' _ hx => ?_, fun _ _ _ h => (by cases h)⟩
    cases hx
    exact ⟨rfl, key x e1⟩
  · rw [e1, e2, e3]
    refine ⟨fun _ h => (by cases h), fun x' y' hx hy => ?_⟩
    cases hx
    cases hy
    refine ⟨_, rfl, ?_⟩
    rw [(joined_lod g x y).faces, List.map_append, key x e1]
    congr 1
    refine List.map_congr_left fun f hf => ?_
    rw [C65_face_objects hm, movedBy_nodup hn (mem_lods_iff.2 ⟨i, j, k, e2⟩) hf]
    rfl

/-- **C65**, counts: merging two meshes of one version with consistent counts gives one with consistent
counts, so that saving it gives a file that loads (C61). -/
theorem C65_counts_kept {h h' : Heap} {a b c : ColMesh F Nat}
    (hm : colMerge h a b = (h', c, none)) (wa : ColWF a) (wb : ColWF b) (hv : a.version = b.version)
    (na : ∀ l ∈ a.lods, l.CountsNonneg) (nb : ∀ l ∈ b.lods, l.CountsNonneg) :
    ColWF c ∧ ∀ l ∈ c.lods, l.CountsNonneg := by
  have hs := colMerge_skeleton hm
  have hver : c.version = a.version := congrArg (fun s => s.2.1) hs
  rw [colWF_iff] at wa wb ⊢
  rw [hs, hver]
  have key : ∀ l ∈ c.lods, ColLodWF a.version l ∧ l.CountsNonneg := by
    intro l hl
    obtain ⟨i, j, k, hl⟩ := mem_lods_iff.1 hl
    rcases colMerge_lods hm i j k with ⟨e1, e2, e3⟩ | ⟨x, e1, e2, e3⟩ |
      ⟨x, y, z, e1, e2, e3, g, rfl⟩
    · rw [e3] at hl; cases hl
    · rw [e3] at hl
      cases hl
      exact ⟨wa.2 l (mem_lods_iff.2 ⟨i, j, k, e1⟩), na l (mem_lods_iff.2 ⟨i, j, k, e1⟩)⟩
    · rw [e3] at hl
      cases hl
      have hx := wa.2 x (mem_lods_iff.2 ⟨i, j, k, e1⟩)
      have hy := wb.2 y (mem_lods_iff.2 ⟨i, j, k, e2⟩)
      obtain ⟨x1, x2, x3, x4, x5⟩ := na x (mem_lods_iff.2 ⟨i, j, k, e1⟩)
      obtain ⟨y1, y2, y3, y4, y5⟩ := nb y (mem_lods_iff.2 ⟨i, j, k, e2⟩)
      have J := joined_lod g x y
      constructor
      · refine ⟨?_, ?_, ?_, ?_, ?_, ?_, ?_⟩
        · rw [J.coltype]; exact hx.coltype
        · rw [J.faces, J.facenum, List.length_append, hx.faces, hy.faces]; omega
        · rw [J.vertices, J.vertnum, List.length_append, hx.vertices, hy.vertices]; omega
        · rw [J.vertids, J.vertnum, List.length_append, hx.vertids, hy.vertids]; omega
        · rw [J.ydata, J.ynum, List.length_append, hx.ydata, hy.ydata]; omega
        · rw [J.zdata, J.znum, List.length_append, hx.zdata, hy.zdata]; omega
        · have ha := hx.adata
          have hb := hy.adata
          rw [← hv] at hb
          rw [J.adata, J.anum]
          split at ha
          · next hge =>
            rw [if_pos hge] at hb ⊢
            rw [List.length_append, ha, hb]; omega
          · next hge =>
            rw [if_neg hge] at hb ⊢
            rw [ha.1, ha.2, hb.1, hb.2]; exact ⟨rfl, rfl⟩
      · rw [ColLod.CountsNonneg, J.facenum, J.vertnum, J.ynum, J.znum, J.anum]
        refine ⟨?_, ?_, ?_, ?_, ?_⟩ <;> omega
  exact ⟨⟨wa.1, fun l hl => (key l hl).1⟩, fun l hl => (key l hl).2⟩

theorem merged_face {h h' : Heap} {a b c : ColMesh F Nat}
    (hm : colMerge h a b = (h', c, none)) (hn : b.allFaces.Nodup) {i j k : Nat}
    {x y z : ColLod F Nat}
    (hx : a.lodAt i j k = some x) (hy : b.lodAt i j k = some y) (hz : c.lodAt i j k = some z)
    {f : Nat} (hf : f ∈ y.faces) :
    f ∈ z.faces ∧ (h' f).corners = [(h f).v1 + y.vertnum, (h f).v2 + y.vertnum,
      (h f).v3 + y.vertnum] ∧ z.vertices = x.vertices ++ y.vertices := by
  have e : h' f = (h f).shift y.vertnum := by
    rw [C65_face_objects hm, movedBy_nodup hn (mem_lods_iff.2 ⟨i, j, k, hy⟩) hf]
  rcases colMerge_lods hm i j k with ⟨e1, e2, e3⟩ | ⟨x', e1, e2, e3⟩ | ⟨x', y', z', e1, e2, e3, g, rfl⟩
  · rw [e1] at hx; cases hx
  · rw [e2] at hy; cases hy
  · rw [e1] at hx; rw [e2] at hy; rw [e3] at hz
    cases hx; cases hy; cases hz
    refine ⟨?_, by rw [e]; rfl, (joined_lod g x y).vertices⟩
    rw [(joined_lod g x y).faces]
    exact List.mem_append_right _ hf

/-! ## C66: what the corners mean after a merge -/

/-- **C66.** Two lods of equally many vertices: after the merge, each corner of a face of the other lod
refers to the vertex it referred to before. -/
theorem C66_equal_counts {h h' : Heap} {a b c : ColMesh F Nat}
    (hm : colMerge h a b = (h', c, none)) (hn : b.allFaces.Nodup) {i j k : Nat}
    {x y z : ColLod F Nat}
    (hx : a.lodAt i j k = some x) (hy : b.lodAt i j k = some y) (hz : c.lodAt i j k = some z)
    (wx : (x.vertices.length : Int) = x.vertnum) (he : x.vertnum = y.vertnum)
    {f : Nat} (hf : f ∈ y.faces) (hw : (h f).Within y.vertnum) :
    f ∈ z.faces ∧ List.Forall₂ (fun v v' => 0 ≤ v' ∧ z.vertices[v'.toNat]? = y.vertices[v.toNat]?)
      (h f).corners (h' f).corners := by
  obtain ⟨h1, h2, h3⟩ := merged_face hm hn hx hy hz hf
  refine ⟨h1, ?_⟩
  rw [h2]
  have key : ∀ v : Int, 0 ≤ v ∧ v < y.vertnum → 0 ≤ v + y.vertnum ∧
      z.vertices[(v + y.vertnum).toNat]? = y.vertices[v.toNat]? := by
    intro v hv
    refine ⟨by omega, ?_⟩
    rw [h3, List.getElem?_append_right (by omega)]
    congr 1
    omega
  exact .cons (key _ hw.1) (.cons (key _ hw.2.1) (.cons (key _ hw.2.2) .nil))

/-- **C66.** Otherwise they do not: with fewer vertices in the other lod, its first corners refer to
vertices of the target; with more, its last corners refer to no vertex at all. -/
theorem C66_unequal_counts {h h' : Heap} {a b c : ColMesh F Nat}
    (hm : colMerge h a b = (h', c, none)) (hn : b.allFaces.Nodup) {i j k : Nat}
    {x y z : ColLod F Nat}
    (hx : a.lodAt i j k = some x) (hy : b.lodAt i j k = some y) (hz : c.lodAt i j k = some z)
    (wx : (x.vertices.length : Int) = x.vertnum) (wy : (y.vertices.length : Int) = y.vertnum)
    {f : Nat} (hf : f ∈ y.faces) (hw : (h f).Within y.vertnum) :
    f ∈ z.faces ∧ List.Forall₂ (fun v v' => 0 ≤ v' ∧
      (v + y.vertnum < x.vertnum → ∃ p, z.vertices[v'.toNat]? = some p ∧
        x.vertices[v'.toNat]? = some p) ∧
      (x.vertnum ≤ v → z.vertices[v'.toNat]? = none)) (h f).corners (h' f).corners := by
  obtain ⟨h1, h2, h3⟩ := merged_face hm hn hx hy hz hf
  refine ⟨h1, ?_⟩
  rw [h2]
  have key : ∀ v : Int, 0 ≤ v ∧ v < y.vertnum → 0 ≤ v + y.vertnum ∧
      (v + y.vertnum < x.vertnum → ∃ p, z.vertices[(v + y.vertnum).toNat]? = some p ∧
        x.vertices[(v + y.vertnum).toNat]? = some p) ∧
      (x.vertnum ≤ v → z.vertices[(v + y.vertnum).toNat]? = none) := by
    intro v hv
    refine ⟨by omega, fun hlt => ?_, fun hle => ?_⟩
    · have : (v + y.vertnum).toNat < x.vertices.length := by omega
      rw [h3]
      exact ⟨_, (List.getElem?_append_left this).trans (List.getElem?_eq_getElem this),
        List.getElem?_eq_getElem this⟩
    · rw [h3]
      exact List.getElem?_eq_none (by rw [List.length_append]; omega)
  exact .cons (key _ hw.1) (.cons (key _ hw.2.1) (.cons (key _ hw.2.2) .nil))

/-! ## C67: the other mesh is changed -/

/-- **C67.** After a merge the other mesh is broken: every face of a lod whose corners were vertices of
that lod now has no corner that is. -/
theorem C67_other_broken {h h' : Heap} {a b c : ColMesh F Nat}
    (hm : colMerge h a b = (h', c, none)) (hn : b.allFaces.Nodup) {y : ColLod F Nat}
    (hy : y ∈ b.lods) {f : Nat} (hf : f ∈ y.faces) (hw : (h f).Within y.vertnum) :
    ∀ v ∈ [(h' f).v1, (h' f).v2, (h' f).v3], y.vertnum ≤ v := by
  have e : h' f = (h f).shift y.vertnum := by
    rw [C65_face_objects hm, movedBy_nodup hn hy hf]
  rw [e]
  obtain ⟨⟨h1, -⟩, ⟨h2, -⟩, h3, -⟩ := hw
  simp only [ColFace.shift, List.mem_cons, List.not_mem_nil, or_false]
  rintro v (rfl | rfl | rfl) <;> omega

/-- **C67.** Merging one mesh into two others moves the faces twice, also those seen in the first target:
they are the same objects. -/
theorem C67_second_merge_moves_again {h h1 h2 : Heap} {a a' b c c' : ColMesh F Nat}
    (hm : colMerge h a b = (h1, c, none)) (hm' : colMerge h1 a' b = (h2, c', none))
    (hn : b.allFaces.Nodup) {i j k : Nat} {y z : ColLod F Nat} (hy : b.lodAt i j k = some y)
    (hz : c.lodAt i j k = some z) :
    ∀ f ∈ y.faces, f ∈ z.faces ∧ (h2 f).v1 = (h1 f).v1 + y.vertnum ∧
      (h2 f).v2 = (h1 f).v2 + y.vertnum ∧ (h2 f).v3 = (h1 f).v3 + y.vertnum := by
  intro f hf
  have e : h2 f = (h1 f).shift y.vertnum := by
    rw [C65_face_objects hm', movedBy_nodup hn (mem_lods_iff.2 ⟨i, j, k, hy⟩) hf]
  rw [e]
  refine ⟨?_, rfl, rfl, rfl⟩
  rcases colMerge_lods hm i j k with ⟨e1, e2, e3⟩ | ⟨x', e1, e2, e3⟩ | ⟨x', y', z', e1, e2, e3, g, rfl⟩
  · rw [e2] at hy; cases hy
  · rw [e2] at hy; cases hy
  · rw [e2] at hy; rw [e3] at hz
    cases hy; cases hz
    rw [(joined_lod g x' y).faces]
    exact List.mem_append_right _ hf

/-! ## C68: when a merge raises -/

/-- **C68.** A merge raises `IndexError` exactly when the other mesh has a geom, subgeom or lod without
counterpart, and no other exception. -/
theorem C68_index_error (h : Heap) (a b : ColMesh F Nat) :
    ((colMerge h a b).2.2 = none ↔ Matches a b) ∧
      ((colMerge h a b).2.2 = some .indexError ↔ ¬ Matches a b) := by
  obtain ⟨h1, h2⟩ := colMerge_err h a b
  refine ⟨h1, ?_⟩
  rw [← h1]
  rcases he : (colMerge h a b).2.2 with _ | e
  · simp
  · rw [h2 e he]; simp

end

/-! ## Examples for C65 to C68 -/

/-- A lod with one face, at address `a`, and the vertices `vs`. -/
def oneFace (a : Nat) (vs : List (Vec3 F64)) : ColLod F64 Nat :=
  { triLod.map unpackF (fun _ => a) with
    vertices := vs, vertnum := vs.length, vertids := vs.map fun _ => 0 }

def colPt (n : Nat) : Vec3 F64 := ⟨flt n, flt 0, flt 0⟩

def oneLod (l : ColLod F64 Nat) : ColMesh F64 Nat := ⟨0, 10, 1, [⟨1, [⟨1, [l]⟩]⟩]⟩

/-- All face objects start with the corners 0, 1, 2. -/
def triHeap : Heap := fun _ => ⟨0, 1, 2, 0, some 7⟩

/-- Three vertices merged with three: corners 3, 4, 5, the bounds grow, the other mesh sees 3, 4, 5 too. -/
example :
    let a := oneLod (oneFace 0 [colPt 0, colPt 1, colPt 2])
    let b := oneLod (oneFace 1 [colPt 5, colPt 6, colPt 7])
    let r := colMerge triHeap a b
    r.2.2 = none ∧
    (r.2.1.lods.map fun l => (l.faces.map r.1, l.max.x, l.vertices.length)) =
      [([⟨0, 1, 2, 0, some 7⟩, ⟨3, 4, 5, 0, some 7⟩], flt 7, 6)] ∧
    (b.lods.map fun l => l.faces.map r.1) = [[⟨3, 4, 5, 0, some 7⟩]] := by
  decide +kernel

/-- Four vertices merged with three: the new face refers to vertex 3 of the target. -/
example :
    let a := oneLod (oneFace 0 [colPt 0, colPt 1, colPt 2, colPt 3])
    let b := oneLod (oneFace 1 [colPt 5, colPt 6, colPt 7])
    let r := colMerge triHeap a b
    (r.2.1.lods.map fun l => (l.faces.map fun f => l.vertices[(r.1 f).v1.toNat]?)) =
      [[some (colPt 0), some (colPt 3)]] := by
  decide +kernel

/-- Two vertices merged with three: the last corner of the new face is 5, and there are 5 vertices. -/
example :
    let a := oneLod (oneFace 0 [colPt 0, colPt 1])
    let b := oneLod (oneFace 1 [colPt 5, colPt 6, colPt 7])
    let r := colMerge triHeap a b
    (r.2.1.lods.map fun l => (l.faces.map fun f => l.vertices[(r.1 f).v3.toNat]?)) =
      [[some (colPt 5), none]] := by
  decide +kernel

/-- Merging into two targets: the first one sees the corners 6, 7, 8. -/
example :
    let a := oneLod (oneFace 0 [colPt 0, colPt 1, colPt 2])
    let a' := oneLod (oneFace 2 [colPt 0, colPt 1, colPt 2])
    let b := oneLod (oneFace 1 [colPt 5, colPt 6, colPt 7])
    let r := colMerge triHeap a b
    let r' := colMerge r.1 a' b
    r'.2.2 = none ∧ b.allFaces.Nodup ∧
    (r.2.1.lods.map fun l => l.faces.map r'.1) =
      [[⟨0, 1, 2, 0, some 7⟩, ⟨6, 7, 8, 0, some 7⟩]] := by
  decide +kernel

/-- A mesh with a second geom merged into one with one geom: `IndexError`, after the first geom has
been merged. -/
example :
    let a := oneLod (oneFace 0 [colPt 0, colPt 1, colPt 2])
    let b : ColMesh F64 Nat := { oneLod (oneFace 1 [colPt 5, colPt 6, colPt 7]) with
      geoms := [⟨1, [⟨1, [oneFace 1 [colPt 5, colPt 6, colPt 7]]⟩]⟩, ⟨0, []⟩] }
    let r := colMerge triHeap a b
    r.2.2 = some .indexError ∧ r.2.1.lods.map (·.faces) = [[0, 1]] := by
  decide +kernel

/-! ## C69: merging a mesh with itself -/

/-- The loop after `k` rounds, unless it ended before. -/
def SelfMerge.after (n : Int) (s : SelfMerge) : Nat → Option SelfMerge
  | 0 => some s
  | k + 1 => (SelfMerge.after n s k).bind (SelfMerge.step n)

/-- **C69.** Merging a lod that has a face with itself never ends: for every number of rounds, the loop
over the faces is still running after that many, and has appended that many faces. -/
theorem C69_self_merge_never_ends (n : Int) (h : Heap) (faces : List Nat) (hf : faces ≠ []) (k : Nat) :
    ∃ s, SelfMerge.after n ⟨h, faces, 0⟩ k = some s ∧ s.faces.length = faces.length + k ∧
      (s.step n).isSome := by
  have hl := List.length_pos_of_ne_nil hf
  have key : ∃ s, SelfMerge.after n ⟨h, faces, 0⟩ k = some s ∧ s.faces.length = faces.length + k ∧
      s.pos = k := by
    induction k with
    | zero => exact ⟨_, rfl, rfl, rfl⟩
    | succ k ih =>
      obtain ⟨s, h1, h2, h3⟩ := ih
      have e : s.faces[s.pos]? = some (s.faces[s.pos]'(by omega)) :=
        List.getElem?_eq_getElem (by omega)
      refine ⟨⟨Function.update s.heap (s.faces[s.pos]'(by omega))
          ((s.heap (s.faces[s.pos]'(by omega))).shift n), s.faces ++ [s.faces[s.pos]'(by omega)],
          s.pos + 1⟩, ?_, ?_, ?_⟩
      · rw [SelfMerge.after, h1, Option.bind_some, SelfMerge.step, e]
      · simp [h2]; omega
      · simp [h3]
  obtain ⟨s, h1, h2, h3⟩ := key
  refine ⟨s, h1, h2, ?_⟩
  have e : s.faces[s.pos]? = some (s.faces[s.pos]'(by omega)) :=
    List.getElem?_eq_getElem (by omega)
  rw [SelfMerge.step, e]
  rfl

/-- Without faces the loop ends at once. -/
example (n : Int) (h : Heap) : SelfMerge.step n ⟨h, [], 0⟩ = none := rfl

example : (SelfMerge.after 3 ⟨triHeap, [0, 1], 0⟩ 5).map (fun s => (s.faces, (s.heap 0).v1)) =
    some ([0, 1, 0, 1, 0, 1, 0], 9) := by decide +kernel

end Bf2
