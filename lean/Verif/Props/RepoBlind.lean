import Verif.RepoBlindLemmas
import Verif.Props.RepoTests

/-!
# What the edit tests of the package can tell: C137
-/

namespace Bf2

/-! ## test_can_merge_staticmesh -/

/-- Whatever mesh `m` a program makes of `old` and `o`: the merge test passes exactly if each material of
`m` is in the same place in both, and its counts are theirs together. -/
theorem C137_merge_tells {F : Type} {m o old : Mesh F} : mergeTest m o old = .ok true ↔
    ∀ i j k c, MatIn m i j k c → ∃ a b, MatIn old i j k a ∧ MatIn o i j k b ∧ CountsOf a b c :=
  mergeTest_iff

/-- If a material of `m` is missing in one of them, and the counts of the others are right, the test ends
with an `IndexError`. -/
theorem C137_merge_missing {F : Type} {m o old : Mesh F}
    (present : ∀ i j k a b c, MatIn m i j k c → MatIn old i j k a → MatIn o i j k b → CountsOf a b c)
    (missing : ∃ i j k c, MatIn m i j k c ∧ ((∀ a, ¬ MatIn old i j k a) ∨ (∀ b, ¬ MatIn o i j k b))) :
    mergeTest m o old = .error .indexError :=
  mergeTest_missing present missing

/-- The test sees the counts only: a program whose merge gives other vertices, other indices, other starts
or other bounds passes, as long as the counts are those of the right program. -/
theorem C137_merge_blind {F : Type} [FArith F] {m o m1 m2 m' : Mesh F} (merged : merge m o = (m1, .ok .done))
    (updated : updateBoundaries m1 = (m2, none)) (counts : EqualCounts m2 m') : mergeTest m' o m = .ok true := by
  rw [← mergeTest_counts counts]
  exact C123_merge_test merged updated

/-- A merge that adds up the counts and loses all vertices and indices, and one that also forgets where the
materials start. -/
example : ∃ m', (merge plainBox plainBox).2 = .ok .done ∧
    EqualCounts (updateBoundaries (merge plainBox plainBox).1).1 m' ∧ m'.vertices = [] ∧ m'.index = .many [] ∧
    (∀ a ∈ m'.mats, a.vstart = 0) ∧ mergeTest m' plainBox plainBox = .ok true := by
  refine ⟨{ (updateBoundaries (merge plainBox plainBox).1).1 with
    vertices := []
    index := .many []
    geoms := (updateBoundaries (merge plainBox plainBox).1).1.geoms.map fun g => { g with
      lods := g.lods.map fun l => { l with materials := l.materials.map fun a => { a with vstart := 0 } } } },
    by decide +kernel, ?_, rfl, rfl, by decide +kernel, by decide +kernel⟩
  refine List.forall₂_map_right_iff.2 (List.forall₂_same.2 fun g _ => ?_)
  refine List.forall₂_map_right_iff.2 (List.forall₂_same.2 fun l _ => ?_)
  exact List.forall₂_map_right_iff.2 (List.forall₂_same.2 fun a _ => ⟨rfl, rfl⟩)

/-- A merge with a mesh that has fewer geoms. -/
example : ∃ m o : Mesh F64, mergeTest m o m = .error .indexError ∧
    (∃ c, MatIn m 1 0 0 c ∧ ∀ b, ¬ MatIn o 1 0 0 b) ∧
    (∀ i j k a b c, MatIn m i j k c → MatIn m i j k a → MatIn o i j k b → CountsOf a b c) := by
  refine ⟨lodded [], { lodded [] with geoms := (lodded []).geoms.take 1 }, by decide +kernel,
    ⟨_, ⟨_, _, rfl, rfl, rfl⟩, ?_⟩, ?_⟩
  · rintro b ⟨g, l, hg, -⟩
    cases hg
  · rintro i j k a b c - - ⟨g, l, hg, hl, hb⟩
    rcases i with _ | i
    · cases hg
      rcases j with _ | j
      · cases hl
        cases hb
      · cases hl
    · cases hg

/-! ## test_edit_order_mesh_data_updated -/

/-- Of the vertices of the geom, the order test compares as many floats as there are vertices, from the first
on; of the index array it compares nothing.  All other floats can be anything. -/
theorem C137_order_blind {F : Type} [DecidableEq F] {old m : Mesh F} {vs : Nat} {a : Mat F} {g : Geom F}
    (size : VertexSize m.vattrs vs) (first : MatIn m 1 0 0 a) (geom : m.geoms[1]? = some g)
    (start : 0 ≤ a.vstart) (count : 0 ≤ g.vertexCount) (w : List F) (len : w.length = m.vertices.length)
    (agree : ∀ k : Nat, (k : Int) < g.vertexCount →
      w[a.vstart.toNat * vs + k]? = m.vertices[a.vstart.toNat * vs + k]?) (ix : OneOrMany Int) :
    orderTest old { m with vertices := w, index := ix } = orderTest old m :=
  orderTest_window size first geom start count w len agree ix

/-- So the test passes for a program that changes the order of three geoms and keeps, of the geom that
becomes the second, 3 floats of 6, of all other vertices nothing, and no index. -/
theorem C137_order_misses : ∃ (old m : Mesh F64) (w : List F64),
    changeGeomsOrder old [0, 2, 1] = (m, none) ∧ orderTest old m = .ok true ∧
    orderTest old { m with vertices := w, index := .many [] } = .ok true ∧
    m.vertices = [0, 1, 2, 3, 6, 7, 8, 9, 10, 11, 4, 5].map flt ∧
    w = [99, 99, 99, 99, 6, 7, 8, 99, 99, 99, 99, 99].map flt :=
  ⟨lodded [(0, 2, 0, 2)], (changeGeomsOrder (lodded [(0, 2, 0, 2)]) [0, 2, 1]).1, _,
    Prod.ext rfl (by decide +kernel), by decide +kernel, by decide +kernel, by decide +kernel, rfl⟩

/-! ## test_can_translate_staticmesh -/

/-- Whatever mesh `m` a program makes of one with the vertices `old`: the translate test passes exactly if,
at each vertex of each material, subtracting the offset from the position gives the position before. -/
theorem C137_translate_tells {old : List F64} {m : Mesh F64} {vs o : Nat} {p : VAttr} {d0 d1 d2 : F64}
    (inside : Inside vs m) (pos : PositionAt vs o m p) (three : p.vartype = 2) (known : AttrsKnown m)
    (len : old.length = m.vertices.length) :
    translateTest F64.feq old m [d0, d1, d2] = .ok true ↔
      ∀ a ∈ m.mats, ∀ v : Nat, (v : Int) < a.vnum → ∃ x y : Vec3 F64,
        vec3At old ((a.vstart.toNat + v) * vs + o) = some x ∧
        vec3At m.vertices ((a.vstart.toNat + v) * vs + o) = some y ∧
        NumEq (F64.sub y.x d0) x.x ∧ NumEq (F64.sub y.y d1) x.y ∧ NumEq (F64.sub y.z d2) x.z :=
  translateTest_tells inside pos three known len

/-- Everything but the positions can be anything: normals, texture coordinates, weights. -/
theorem C137_translate_blind {old w : List F64} {m : Mesh F64} {vs o : Nat} {p : VAttr} {d0 d1 d2 : F64}
    (inside : Inside vs m) (pos : PositionAt vs o m p) (three : p.vartype = 2) (known : AttrsKnown m)
    (len : old.length = m.vertices.length) (len' : w.length = m.vertices.length)
    (agree : ∀ v k : Nat, k < 3 → w[v * vs + o + k]? = m.vertices[v * vs + o + k]?) (ix : OneOrMany Int) :
    translateTest F64.feq old { m with vertices := w, index := ix } [d0, d1, d2] = .ok true ↔
      translateTest F64.feq old m [d0, d1, d2] = .ok true := by
  have same : ∀ v, vec3At w (v * vs + o) = vec3At m.vertices (v * vs + o) := by
    intro v
    unfold vec3At
    rw [show w[v * vs + o]? = m.vertices[v * vs + o]? from agree v 0 (by omega), agree v 1 (by omega),
      agree v 2 (by omega)]
  have inside' : translateTest F64.feq old { m with vertices := w, index := ix } [d0, d1, d2] = .ok true ↔
      translateTest F64.feq old { m with vertices := w } [d0, d1, d2] = .ok true := Iff.rfl
  have verts : ∀ a ∈ m.mats, VertsInside vs { m with vertices := w } a := by
    intro a ha
    have := inside.verts a ha
    unfold VertsInside at this ⊢
    rw [len']
    exact this
  rw [inside', translateTest_tells (m := { m with vertices := w })
      ⟨inside.pos, inside.size, verts, inside.index⟩ (pos.congr rfl rfl) three known (len.trans len'.symm),
    translateTest_tells inside pos three known len]
  simp only [same]
  exact Iff.rfl

/-- The sample, moved as it should be; then with `99` in all places that hold no position. -/
example : ∃ m w, Inside 8 plainBox ∧ PositionAt 8 0 plainBox ⟨0, 0, 2, 0⟩ ∧ AttrsKnown plainBox ∧
    translate plainBox [F64.zero, F64.zero, F64.ofRat false (3 / 2)] = (m, none) ∧
    translateTest F64.feq plainBox.vertices { m with vertices := w, index := .many [] }
      [F64.zero, F64.zero, F64.ofRat false (3 / 2)] = .ok true ∧
    (w.zip m.vertices).countP (fun p => p.1 ≠ p.2) = 15 ∧ w.length = 24 :=
  ⟨(translate plainBox [F64.zero, F64.zero, F64.ofRat false (3 / 2)]).1,
    ((translate plainBox [F64.zero, F64.zero, F64.ofRat false (3 / 2)]).1.vertices.zip
      (List.range 24)).map fun p => if p.2 % 8 < 3 then p.1 else flt 99,
    plainBox_orderly.inside,
    ⟨⟨[], _, rfl, by decide, by decide⟩, show StartsAt 4 _ _ by decide, Or.inl rfl, by decide⟩,
    boxed_known (flt 0) [], Prod.ext rfl (by decide +kernel), by decide +kernel, by decide +kernel,
    by decide +kernel⟩

end Bf2
