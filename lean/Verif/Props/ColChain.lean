import Verif.ColChain
import Verif.ColChainSpec
import Verif.Props.ColEdit

/-!
# Merging several collision meshes one after the other: C170
-/

namespace Bf2

variable {F : Type} [FArith F]

theorem colMergeAll_cons {h h' : Heap} {a b c : ColMesh F Nat} {bs : List (ColMesh F Nat)}
    (hm : colMergeAll h a (b :: bs) = (h', c, none)) :
    ∃ h1 a1, colMerge h a b = (h1, a1, none) ∧ colMergeAll h1 a1 bs = (h', c, none) := by
  rw [colMergeAll] at hm
  rcases hb : colMerge h a b with ⟨h1, a1, _ | e⟩
  · rw [hb] at hm
    exact ⟨h1, a1, rfl, hm⟩
  · rw [hb] at hm
    cases hm

theorem colMerge_faces_sub {h h' : Heap} {a b c : ColMesh F Nat} (hm : colMerge h a b = (h', c, none)) {f : Nat}
    (hf : f ∈ c.allFaces) : f ∈ a.allFaces ∨ f ∈ b.allFaces := by
  obtain ⟨z, hz, hfz⟩ := List.mem_flatMap.1 hf
  obtain ⟨i, j, k, hk⟩ := mem_lods_iff.1 hz
  rcases colMerge_lods hm i j k with ⟨e1, e2, e3⟩ | ⟨x, e1, e2, e3⟩ | ⟨x, y, z', e1, e2, e3, g, rfl⟩
  · rw [e3] at hk; cases hk
  · rw [e3] at hk
    cases hk
    exact .inl (List.mem_flatMap.2 ⟨_, mem_lods_iff.2 ⟨i, j, k, e1⟩, hfz⟩)
  · rw [e3] at hk
    cases hk
    rw [(joined_lod g x y).faces] at hfz
    rcases List.mem_append.1 hfz with hx | hy
    · exact .inl (List.mem_flatMap.2 ⟨_, mem_lods_iff.2 ⟨i, j, k, e1⟩, hx⟩)
    · exact .inr (List.mem_flatMap.2 ⟨_, mem_lods_iff.2 ⟨i, j, k, e2⟩, hy⟩)

/-- **C170.** Meshes that share no face object (as loaded ones), merged into `a` one after the other: every lod of `a` is
followed by its counterparts in order, and the faces of each are moved by the number of its own vertices. -/
theorem C170_chain {h h' : Heap} {a c : ColMesh F Nat} {bs : List (ColMesh F Nat)}
    (merged : colMergeAll h a bs = (h', c, none)) (distinct : ∀ b ∈ bs, b.allFaces.Nodup)
    (apart : (a :: bs).Pairwise fun b b' => ∀ f ∈ b.allFaces, f ∉ b'.allFaces) (i j k : Nat) :
    (a.lodAt i j k = none → c.lodAt i j k = none ∧ ∀ b ∈ bs, b.lodAt i j k = none) ∧
    ∀ x, a.lodAt i j k = some x → ∃ z, c.lodAt i j k = some z ∧
      StackedLod h h' x (bs.filterMap (·.lodAt i j k)) z := by
  induction bs generalizing h a with
  | nil =>
    cases merged
    refine ⟨fun h => ⟨h, fun b hb => by cases hb⟩, fun x hx => ⟨x, hx, ?_⟩⟩
    constructor <;> simp
  | cons b bs ih =>
    obtain ⟨h1, a1, hm, hrest⟩ := colMergeAll_cons merged
    rw [List.pairwise_cons, List.pairwise_cons] at apart
    obtain ⟨ap1, ap2, ap3⟩ := apart
    have hout : ∀ b' ∈ bs, ∀ f ∈ b'.allFaces, h1 f = h f := by
      intro b' hb' f hf
      rw [C65_face_objects hm, movedBy_zero, ColFace.shift_zero]
      exact fun hb => ap2 b' hb' f hb hf
    have ih := ih hrest (fun b' hb' => distinct b' (List.mem_cons_of_mem _ hb')) (by
      rw [List.pairwise_cons]
      refine ⟨fun b' hb' f hf hf' => ?_, ap3⟩
      rcases colMerge_faces_sub hm hf with hf | hf
      · exact ap1 b' (List.mem_cons_of_mem _ hb') f hf hf'
      · exact ap2 b' hb' f hf hf')
    obtain ⟨s1, s2⟩ := C65_faces_seen hm (distinct b (by simp)) (ap1 b (by simp)) i j k
    have hseen : ∀ ys : List (ColLod F Nat), (∀ y ∈ ys, ∀ f ∈ y.faces, h1 f = h f) →
        (ys.flatMap fun y => y.faces.map fun f =>
          ({ h1 f with v1 := (h1 f).v1 + y.vertnum, v2 := (h1 f).v2 + y.vertnum, v3 := (h1 f).v3 + y.vertnum } : ColFace)) =
        ys.flatMap fun y => y.faces.map fun f =>
          { h f with v1 := (h f).v1 + y.vertnum, v2 := (h f).v2 + y.vertnum, v3 := (h f).v3 + y.vertnum } := by
      intro ys hys
      refine List.flatMap_congr fun y hy => List.map_congr_left fun f hf => ?_
      rw [hys y hy f hf]
    have hys : ∀ y ∈ bs.filterMap (·.lodAt i j k), ∀ f ∈ y.faces, h1 f = h f := by
      intro y hy f hf
      obtain ⟨b', hb', hy'⟩ := List.mem_filterMap.1 hy
      exact hout b' hb' f (List.mem_flatMap.2 ⟨y, mem_lods_iff.2 ⟨i, j, k, hy'⟩, hf⟩)
    rcases colMerge_lods hm i j k with ⟨e1, e2, e3⟩ | ⟨x, e1, e2, e3⟩ | ⟨x, y, z, e1, e2, e3, g, hg⟩
    · refine ⟨fun _ => ⟨(ih.1 e3).1, ?_⟩, fun x hx => (by rw [e1] at hx; cases hx)⟩
      intro b' hb'
      rcases List.mem_cons.1 hb' with rfl | hb'
      · exact e2
      · exact (ih.1 e3).2 b' hb'
    · refine ⟨fun h0 => (by rw [e1] at h0; cases h0), fun x' hx => ?_⟩
      rw [e1] at hx
      cases hx
      obtain ⟨z, hz, st⟩ := ih.2 x e3
      refine ⟨z, hz, ?_⟩
      rw [show (b :: bs).filterMap (fun m => m.lodAt i j k) = bs.filterMap (fun m => m.lodAt i j k) by
        rw [List.filterMap_cons, e2]]
      refine ⟨st.vertices, st.vertids, st.vertnum, st.facenum, st.faces, ?_⟩
      rw [st.seen, hseen _ hys, (s1 x e2 e1).2]
    · refine ⟨fun h0 => (by rw [e1] at h0; cases h0), fun x' hx => ?_⟩
      rw [e1] at hx
      cases hx
      obtain ⟨w, hw, st⟩ := ih.2 z e3
      refine ⟨w, hw, ?_⟩
      rw [show (b :: bs).filterMap (fun m => m.lodAt i j k) = y :: bs.filterMap (fun m => m.lodAt i j k) by
        rw [List.filterMap_cons, e2]]
      have jd : Joined x y z := by rw [hg]; exact joined_lod g x y
      obtain ⟨z', hz', hsz⟩ := s2 x y e1 e2
      rw [e3] at hz'
      cases hz'
      refine ⟨?_, ?_, ?_, ?_, ?_, ?_⟩
      · rw [st.vertices, jd.vertices, List.flatMap_cons, List.append_assoc]
      · rw [st.vertids, jd.vertids, List.flatMap_cons, List.append_assoc]
      · rw [st.vertnum, jd.vertnum, List.map_cons, List.sum_cons, add_assoc]
      · rw [st.facenum, jd.facenum, List.map_cons, List.sum_cons, add_assoc]
      · rw [st.faces, jd.faces, List.flatMap_cons, List.append_assoc]
      · rw [st.seen, hseen _ hys, hsz, List.flatMap_cons, List.append_assoc]

omit [FArith F] in
/-- **C170.** If all lods have `n` vertices, the corners of every merged face come to point at the vertices of the first
of the merged meshes, whichever mesh the face came from. -/
theorem C170_equal_counts {h h' : Heap} {x y0 z : ColLod F Nat} {ys : List (ColLod F Nat)} {n : Nat}
    (stacked : StackedLod h h' x (y0 :: ys) z) (own : x.vertices.length = n)
    (counts : ∀ y ∈ y0 :: ys, y.vertnum = n ∧ y.vertices.length = n) {y : ColLod F Nat} (mem : y ∈ y0 :: ys)
    {f : Nat} (face : f ∈ y.faces) (within : (h f).Within y.vertnum) :
    ∃ g ∈ z.faces, List.Forall₂ (fun v v' => 0 ≤ v' ∧ z.vertices[v'.toNat]? = y0.vertices[v.toNat]?)
      (h f).corners (h' g).corners := by
  have hmem : ({ h f with v1 := (h f).v1 + y.vertnum, v2 := (h f).v2 + y.vertnum, v3 := (h f).v3 + y.vertnum } : ColFace)
      ∈ z.faces.map h' := by
    rw [stacked.seen]
    exact List.mem_append_right _ (List.mem_flatMap.2 ⟨y, mem, List.mem_map.2 ⟨f, face, rfl⟩⟩)
  obtain ⟨g, hg, he⟩ := List.mem_map.1 hmem
  refine ⟨g, hg, ?_⟩
  rw [he, stacked.vertices]
  have key : ∀ v : Int, 0 ≤ v → v < y.vertnum → 0 ≤ v + y.vertnum ∧
      (x.vertices ++ (y0 :: ys).flatMap (·.vertices))[(v + y.vertnum).toNat]? = y0.vertices[v.toNat]? := by
    intro v h0 h1
    rw [(counts y mem).1] at h1 ⊢
    have h2 := (counts y0 (by simp)).2
    refine ⟨by omega, ?_⟩
    rw [List.getElem?_append_right (by omega), List.flatMap_cons, List.getElem?_append_left (by omega)]
    congr 1
    omega
  obtain ⟨⟨a1, a2⟩, ⟨b1, b2⟩, c1, c2⟩ := within
  exact .cons (key _ a1 a2) (.cons (key _ b1 b2) (.cons (key _ c1 c2) .nil))

theorem colMergeAll_objects {h h' : Heap} {a c : ColMesh F Nat} {bs : List (ColMesh F Nat)}
    (merged : colMergeAll h a bs = (h', c, none)) (f : Nat) :
    h' f = (h f).shift (bs.map fun b => movedBy b.lods f).sum := by
  induction bs generalizing h a with
  | nil =>
    cases merged
    simp [ColFace.shift_zero]
  | cons b bs ih =>
    obtain ⟨h1, a1, hm, hrest⟩ := colMergeAll_cons merged
    rw [ih hrest, C65_face_objects hm, ColFace.shift_shift, List.map_cons, List.sum_cons]

/-- **C170.** Whatever is shared, also if a mesh is merged several times: a face object is moved once for every time it
occurs in a lod of a merged mesh, by the number of vertices of that lod. -/
theorem C170_face_objects {h h' : Heap} {a c : ColMesh F Nat} {bs : List (ColMesh F Nat)}
    (merged : colMergeAll h a bs = (h', c, none)) (f : Nat) {moved : Int}
    (sum : moved = (bs.map fun b => (b.lods.map fun l => l.vertnum * (l.faces.count f : Int)).sum).sum) :
    h' f = { h f with v1 := (h f).v1 + moved, v2 := (h f).v2 + moved, v3 := (h f).v3 + moved } := by
  rw [sum]
  exact colMergeAll_objects merged f

/-- **C170.** A mesh merged twice: its face objects occur twice in the result and are moved twice, so both copies of a
face have the same corners. -/
theorem C170_twice {h h' : Heap} {a b c : ColMesh F Nat} (merged : colMergeAll h a [b, b] = (h', c, none))
    (distinct : b.allFaces.Nodup) (apart : ∀ f ∈ a.allFaces, f ∉ b.allFaces) {i j k : Nat} {x y : ColLod F Nat}
    (target : a.lodAt i j k = some x) (other : b.lodAt i j k = some y) :
    ∃ z, c.lodAt i j k = some z ∧ z.vertices = x.vertices ++ (y.vertices ++ y.vertices) ∧
      z.faces.map h' = x.faces.map h ++ (y.faces ++ y.faces).map fun f =>
        { h f with v1 := (h f).v1 + 2 * y.vertnum, v2 := (h f).v2 + 2 * y.vertnum, v3 := (h f).v3 + 2 * y.vertnum } := by
  have hobj := colMergeAll_objects merged
  obtain ⟨h1, a1, hm, hrest⟩ := colMergeAll_cons merged
  obtain ⟨h2, a2, hm2, hrest2⟩ := colMergeAll_cons hrest
  cases hrest2
  rcases colMerge_lods hm i j k with ⟨e1, e2, e3⟩ | ⟨x1, e1, e2, e3⟩ | ⟨x1, y1, z1, e1, e2, e3, g, hg⟩
  · rw [e1] at target; cases target
  · rw [e2] at other; cases other
  rw [e1] at target; cases target
  rw [e2] at other; cases other
  rcases colMerge_lods hm2 i j k with ⟨d1, d2, d3⟩ | ⟨x2, d1, d2, d3⟩ | ⟨x2, y2, z2, d1, d2, d3, g2, hg2⟩
  · rw [d1] at e3; cases e3
  · rw [d2] at e2; cases e2
  rw [d1] at e3; cases e3
  rw [d2] at e2; cases e2
  have j1 : Joined x y z1 := by rw [hg]; exact joined_lod g x y
  have j2 : Joined z1 y z2 := by rw [hg2]; exact joined_lod g2 z1 y
  refine ⟨z2, d3, by rw [j2.vertices, j1.vertices, List.append_assoc], ?_⟩
  rw [j2.faces, j1.faces, List.append_assoc, List.map_append]
  congr 1
  · refine List.map_congr_left fun f hf => ?_
    have hn : f ∉ b.allFaces := apart f (List.mem_flatMap.2 ⟨x, mem_lods_iff.2 ⟨i, j, k, e1⟩, hf⟩)
    rw [hobj]
    simp [movedBy_zero hn, ColFace.shift_zero]
  · refine List.map_congr_left fun f hf => ?_
    have hf : f ∈ y.faces := by simpa using hf
    rw [hobj]
    simp only [List.map_cons, List.map_nil, List.sum_cons, List.sum_nil,
      movedBy_nodup distinct (mem_lods_iff.2 ⟨i, j, k, d2⟩) hf, ColFace.shift, add_zero, two_mul]

omit [FArith F] in
theorem matches_skeleton {a c b : ColMesh F Nat} (h : c.skeleton = a.skeleton) (hm : Matches a b) : Matches c b := by
  have hg : c.geoms.map (fun g => (g.subgeomnum, g.subgeoms.map fun s => (s.lodnum, s.lods.length))) =
      a.geoms.map (fun g => (g.subgeomnum, g.subgeoms.map fun s => (s.lodnum, s.lods.length))) :=
    congrArg (fun s => s.2.2.2) h
  have hl := congrArg List.length hg
  rw [List.length_map, List.length_map] at hl
  refine ⟨hl ▸ hm.1, fun i gc gb hc hb => ?_⟩
  have hi := congrArg (fun l => l[i]?) hg
  simp only [List.getElem?_map, hc, Option.map_some] at hi
  rcases ha : a.geoms[i]? with _ | ga
  · rw [ha] at hi; cases hi
  rw [ha, Option.map_some, Option.some.injEq, Prod.mk.injEq] at hi
  obtain ⟨-, hs⟩ := hi
  obtain ⟨h1, h2⟩ := hm.2 i ga gb ha hb
  have hsl := congrArg List.length hs
  rw [List.length_map, List.length_map] at hsl
  refine ⟨hsl ▸ h1, fun j sc sb hsc hsb => ?_⟩
  have hj := congrArg (fun l => l[j]?) hs
  simp only [List.getElem?_map, hsc, Option.map_some] at hj
  rcases hsa : ga.subgeoms[j]? with _ | sa
  · rw [hsa] at hj; cases hj
  rw [hsa, Option.map_some, Option.some.injEq, Prod.mk.injEq] at hj
  rw [hj.2]
  exact h2 j sa sb hsa hsb

/-- **C170.** The chain ends without an exception exactly if every mesh matches the first one; else with `IndexError`. -/
theorem C170_raises (h : Heap) (a : ColMesh F Nat) (bs : List (ColMesh F Nat)) :
    ((colMergeAll h a bs).2.2 = none ↔ ∀ b ∈ bs, Matches a b) ∧
    ((colMergeAll h a bs).2.2 = some .indexError ↔ ∃ b ∈ bs, ¬ Matches a b) := by
  induction bs generalizing h a with
  | nil => simp [colMergeAll]
  | cons b bs ih =>
    obtain ⟨k1, k2⟩ := C68_index_error h a b
    rw [colMergeAll]
    rcases hb : colMerge h a b with ⟨h1, a1, _ | e⟩
    · rw [hb] at k1
      have hm := k1.1 rfl
      have hsk := colMerge_skeleton hb
      have hiff : ∀ b', Matches a1 b' ↔ Matches a b' := fun b' =>
        ⟨matches_skeleton hsk.symm, matches_skeleton hsk⟩
      simp only [ih h1 a1, hiff, List.forall_mem_cons, List.exists_mem_cons_iff, hm, true_and, not_true, false_or,
        and_self]
    · rw [hb] at k1 k2
      have hn : ¬ Matches a b := fun hm => by
        have := k1.2 hm
        cases this
      have he : e = .indexError := by
        have := k2.2 hn
        cases this
        rfl
      subst he
      simp [hn]

/-- **C170.** At a merge that raises the chain stops and leaves the meshes as that merge left them. -/
theorem C170_stops {h h' : Heap} {a a' b : ColMesh F Nat} {bs rest : List (ColMesh F Nat)} {e : Err}
    (before : colMergeAll h a bs = (h', a', none)) (raises : (colMerge h' a' b).2.2 = some e) :
    colMergeAll h a (bs ++ b :: rest) = colMerge h' a' b := by
  induction bs generalizing h a with
  | nil =>
    cases before
    rcases hm : colMerge h' a' b with ⟨h1, a1, e1⟩
    rw [hm] at raises
    cases raises
    rw [List.nil_append, colMergeAll, hm]
  | cons c bs ih =>
    obtain ⟨h1, a1, hm, hrest⟩ := colMergeAll_cons before
    rw [List.cons_append, colMergeAll, hm]
    exact ih hrest

/-- **C170.** Meshes of one version with consistent counts make one with consistent counts. -/
theorem C170_counts {h h' : Heap} {a c : ColMesh F Nat} {bs : List (ColMesh F Nat)}
    (merged : colMergeAll h a bs = (h', c, none)) (wf : ∀ m ∈ a :: bs, ColWF m ∧ m.version = a.version)
    (nonneg : ∀ m ∈ a :: bs, ∀ l ∈ m.lods, l.CountsNonneg) :
    ColWF c ∧ c.version = a.version ∧ ∀ l ∈ c.lods, l.CountsNonneg := by
  induction bs generalizing h a with
  | nil =>
    cases merged
    exact ⟨(wf _ List.mem_cons_self).1, rfl, nonneg _ List.mem_cons_self⟩
  | cons b bs ih =>
    obtain ⟨h1, a1, hm, hrest⟩ := colMergeAll_cons merged
    have hv : a1.version = a.version := congrArg (fun s => s.2.1) (colMerge_skeleton hm)
    obtain ⟨w1, w2⟩ := C65_counts_kept hm (wf a (by simp)).1 (wf b (by simp)).1 (wf b (by simp)).2.symm
      (nonneg a (by simp)) (nonneg b (by simp))
    obtain ⟨r1, r2, r3⟩ := ih hrest (fun m hmem => by
      rcases List.mem_cons.1 hmem with rfl | hmem
      · exact ⟨w1, rfl⟩
      · exact ⟨(wf m (by simp [hmem])).1, hv ▸ (wf m (by simp [hmem])).2⟩) (fun m hmem => by
      rcases List.mem_cons.1 hmem with rfl | hmem
      · exact w2
      · exact nonneg m (by simp [hmem]))
    exact ⟨r1, r2.trans hv, r3⟩

/-! ## Witnesses -/

/-- Three triangles in a row: the face of the third one points at the vertices of the second one. -/
example :
    let a := oneLod (oneFace 0 [colPt 0, colPt 1, colPt 2])
    let b := oneLod (oneFace 1 [colPt 5, colPt 6, colPt 7])
    let b' := oneLod (oneFace 2 [colPt 8, colPt 9, colPt 10])
    let r := colMergeAll triHeap a [b, b']
    r.2.2 = none ∧ b.allFaces.Nodup ∧ b'.allFaces.Nodup ∧ (a.allFaces, b.allFaces, b'.allFaces) = ([0], [1], [2]) ∧
    (0 ≤ (triHeap 2).v1 ∧ (triHeap 2).v1 < 3) ∧
    (r.2.1.lods.map fun l => (l.vertices.length, l.faces.map fun f => l.vertices[(r.1 f).v1.toNat]?)) =
      [(9, [some (colPt 0), some (colPt 5), some (colPt 5)])] := by
  decide +kernel

/-- One triangle merged twice: both copies point at the second one. -/
example :
    let a := oneLod (oneFace 0 [colPt 0, colPt 1, colPt 2])
    let b := oneLod (oneFace 1 [colPt 5, colPt 6, colPt 7])
    let r := colMergeAll triHeap a [b, b]
    r.2.2 = none ∧ b.allFaces.Nodup ∧ (a.allFaces, b.allFaces) = ([0], [1]) ∧
    (r.2.1.lods.map fun l => (l.vertices.length, l.faces.map r.1)) =
      [(9, [⟨0, 1, 2, 0, some 7⟩, ⟨6, 7, 8, 0, some 7⟩, ⟨6, 7, 8, 0, some 7⟩])] := by
  decide +kernel

/-- Counts 1, 1 and 2: every face points at its own vertices, because every mesh has as many vertices as all before it. -/
example :
    let a := oneLod (oneFace 0 [colPt 0])
    let b := oneLod (oneFace 1 [colPt 5])
    let b' := oneLod (oneFace 2 [colPt 8, colPt 9])
    let r := colMergeAll (fun _ => ⟨0, 0, 0, 0, none⟩) a [b, b']
    r.2.2 = none ∧ (r.2.1.lods.map fun l => l.faces.map fun f => l.vertices[(r.1 f).v1.toNat]?) =
      [[some (colPt 0), some (colPt 5), some (colPt 8)]] := by
  decide +kernel

/-- The second of two does not match: `IndexError`. -/
example : let a := oneLod (oneFace 0 [colPt 0])
    (colMergeAll triHeap a [oneLod (oneFace 1 [colPt 5]), ⟨0, 10, 2, [⟨0, []⟩, ⟨0, []⟩]⟩]).2.2 = some .indexError ∧
    Matches a (oneLod (oneFace 1 [colPt 5])) := by
  refine ⟨by decide +kernel, (C68_index_error triHeap _ _).1.1 (by decide +kernel)⟩

/-- The second of three has a geom too many: its first geom has been merged, and its face moved. -/
example :
    let a := oneLod (oneFace 0 [colPt 0])
    let b := oneLod (oneFace 1 [colPt 5])
    let b' : ColMesh F64 Nat := ⟨0, 10, 2, [⟨1, [⟨1, [oneFace 2 [colPt 8, colPt 9]]⟩]⟩, ⟨0, []⟩]⟩
    let r := colMergeAll triHeap a [b]
    colMergeAll triHeap a ([b] ++ b' :: [b]) = colMerge r.1 r.2.1 b' ∧
    (r.2.1.lods.map fun l => (l.vertices.length, l.faces.map fun f => (r.1 f).v1)) = [(2, [0, 1])] ∧
    ((colMerge r.1 r.2.1 b').2.1.lods.map fun l =>
      (l.vertices.length, l.faces.map fun f => ((colMerge r.1 r.2.1 b').1 f).v1)) = [(4, [0, 1, 2])] :=
  ⟨C170_stops (e := .indexError) (Prod.ext rfl (Prod.ext rfl (by decide +kernel))) (by decide +kernel), by decide +kernel,
    by decide +kernel⟩

end Bf2
