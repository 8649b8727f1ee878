import Verif.RepoTests
import Verif.HistoryLemmas
import Verif.EqualLemmas
import Verif.FormatLemmas
import Verif.ReadmeLemmas
import Verif.RepoTestsSpec

/-! # Lemmas about the tests of the package -/

namespace Bf2

section
variable {F : Type} [FArith F]

/-! ## The floats of updated bounds -/

/-- All floats of the box have the property. -/
def Box.All (P : F → Prop) (b : Box F) : Prop := ∀ x ∈ b.min.floats ++ b.max.floats, P x

theorem Box.All.zero {P : F → Prop} (h : P FArith.zero) : (Box.zero : Box F).All P := by
  intro x hx
  simp only [Box.zero, Vec3.floats, List.mem_append, List.mem_cons, List.not_mem_nil, or_false,
    or_self] at hx
  rw [hx]; exact h

theorem Box.All.extend {P : F → Prop} {b : Box F} {p : Vec3 F} (h : b.All P)
    (step : ∀ x ∈ p.floats, ∀ c, P c → P (minUpd c x) ∧ P (maxUpd c x)) : (b.extend p).All P := by
  unfold Box.All Vec3.floats at h
  unfold Vec3.floats at step
  intro x hx
  simp only [Box.extend, Vec3.floats, List.mem_append, List.mem_cons, List.not_mem_nil, or_false] at hx
  rcases hx with (rfl | rfl | rfl) | (rfl | rfl | rfl)
  · exact (step _ (by simp) _ (h _ (by simp))).1
  · exact (step _ (by simp) _ (h _ (by simp))).1
  · exact (step _ (by simp) _ (h _ (by simp))).1
  · exact (step _ (by simp) _ (h _ (by simp))).2
  · exact (step _ (by simp) _ (h _ (by simp))).2
  · exact (step _ (by simp) _ (h _ (by simp))).2

omit [FArith F] in
theorem pySlice_sub {l : List F} {a b : Int} {x : F} (h : x ∈ pySlice l a b) : x ∈ l := by
  unfold pySlice at h
  exact List.mem_of_mem_drop (List.mem_of_mem_take h)

omit [FArith F] in
theorem vertexAttrs_sub {vf : Int} {buf : List F} {attrs : List VAttr} {l : List F}
    (h : foldE (vertexAttrs vf buf) none attrs = .ok (some l)) : ∀ x ∈ l, x ∈ buf := by
  have := foldE_inv (f := vertexAttrs vf buf) (fun s => ∀ l, s = some l → ∀ x ∈ l, x ∈ buf) (l := attrs)
    (fun s s' a _ hs hf => by
      intro l hl
      unfold vertexAttrs at hf
      split at hf
      · cases hf; exact hs l hl
      · split at hf
        · cases hf
        · split at hf
          · cases hf
          · split at hf
            · split at hf
              · cases hf; cases hl; exact fun x hx => pySlice_sub hx
              · cases hf; exact hs l hl
            · cases hf) (s := none) (s' := some l) (fun l hl => by cases hl) h
  exact this l rfl

variable {P : F → Prop} {m : Mesh F}

theorem boundVertex_all (step : ∀ x ∈ m.vertices, ∀ c, P c → P (minUpd c x) ∧ P (maxUpd c x))
    {a : Mat F} {s s' : Box F × Box F} {v : Nat} (h : boundVertex m a s v = .ok s')
    (hs : s.1.All P ∧ s.2.All P) : s'.1.All P ∧ s'.2.All P := by
  unfold boundVertex at h
  split at h
  · cases h
  · simp only at h
    split at h
    · cases h
    · rename_i pos hp
      split at h
      · split at h
        · cases h
        · rename_i l
          split at h
          · cases h
          · rename_i p hv
            cases h
            have hsub : ∀ x ∈ p.floats, x ∈ m.vertices := by
              intro x hx
              apply pySlice_sub
              apply vertexAttrs_sub hp
              unfold toVec3 at hv
              split at hv
              · cases hv
                simp only [Vec3.floats, List.mem_cons, List.not_mem_nil, or_false] at hx
                rcases hx with rfl | rfl | rfl <;> simp
              · cases hv
            exact ⟨hs.1.extend fun x hx => step x (hsub x hx), hs.2.extend fun x hx => step x (hsub x hx)⟩
      · cases h; exact hs

/-- The floats of the bounds of a material. -/
def Mat.AllBounds (m : Mesh F) (P : F → Prop) (a : Mat F) : Prop :=
  m.bounded = true → a.mmin.isSome = true ∧ a.mmax.isSome = true ∧
    ∀ x ∈ optFloats a.mmin ++ optFloats a.mmax, P x

theorem boundMats_all (zero : P FArith.zero)
    (step : ∀ x ∈ m.vertices, ∀ c, P c → P (minUpd c x) ∧ P (maxUpd c x)) (as : List (Mat F))
    {b b' : Box F} {ms : List (Mat F)} (h : trav (boundMat m) b as = (b', ms, none)) (hb : b.All P) :
    b'.All P ∧ ∀ a ∈ ms, a.AllBounds m P := by
  induction as generalizing b ms with
  | nil => cases h; exact ⟨hb, by simp⟩
  | cons a as ih =>
    obtain ⟨t, a', as', h1, h2, rfl⟩ := trav_none h
    have ht : t.All P ∧ a'.AllBounds m P := by
      unfold boundMat at h1
      split at h1
      · cases h1
      · rename_i mb lb hf
        have hi := foldE_inv (fun s : Box F × Box F => s.1.All P ∧ s.2.All P)
          (fun s s' v _ hs hv => boundVertex_all step hv hs) (s := (Box.zero, b)) ⟨.zero zero, hb⟩ hf
        split at h1
        · cases h1
          exact ⟨hi.2, fun _ => ⟨rfl, rfl, hi.1⟩⟩
        · rename_i hn
          cases h1
          exact ⟨hi.2, fun hy => absurd hy hn⟩
    obtain ⟨h3, h4⟩ := ih h2 ht.1
    refine ⟨h3, fun x hx => ?_⟩
    rcases List.mem_cons.1 hx with rfl | hx
    · exact ht.2
    · exact h4 x hx

/-- The floats of updated bounds have every property that `0.0` has and that is kept by the two
comparisons with floats of vertices. -/
theorem update_all (zero : P FArith.zero)
    (step : ∀ x ∈ m.vertices, ∀ c, P c → P (minUpd c x) ∧ P (maxUpd c x)) {m' : Mesh F}
    (h : updateBoundaries m = (m', none)) : ∀ g ∈ m'.geoms, ∀ l ∈ g.lods,
      (∀ x ∈ l.min.floats ++ l.max.floats, P x) ∧ ∀ a ∈ l.materials, a.AllBounds m P := by
  unfold updateBoundaries at h
  rcases ht : trav (boundGeom m) () m.geoms with ⟨u, gs, e⟩
  rw [ht] at h
  cases h
  intro g hg l hl
  obtain ⟨g0, -, h0⟩ := forall₂_mem_right (trav_unit ht) hg
  unfold boundGeom at h0
  rcases hl0 : trav (boundLod m) () g0.lods with ⟨u, ls, e⟩
  rw [hl0] at h0
  cases h0
  obtain ⟨l0, -, h1⟩ := forall₂_mem_right (trav_unit hl0) hl
  unfold boundLod at h1
  rcases hm0 : trav (boundMat m) Box.zero l0.materials with ⟨b, ms, _ | e⟩
  · rw [hm0] at h1
    cases h1
    exact boundMats_all zero step _ hm0 (.zero zero)
  · rw [hm0] at h1
    cases h1

/-- Updating bounds brings in no float but `0.0`. -/
theorem update_floats {m' : Mesh F} (h : updateBoundaries m = (m', none)) :
    ∀ x ∈ m'.floats, x = FArith.zero ∨ x ∈ m.floats := by
  have hv : m'.vertices = m.vertices := by
    have := congrArg Prod.fst h
    rw [← show (updateBoundaries m).1 = m' from this]
    rfl
  have ha := update_all (P := fun x => x = FArith.zero ∨ x ∈ m.vertices) (.inl rfl) (fun x hx c hc => by
    unfold minUpd maxUpd
    constructor <;> split
    · exact .inr hx
    · exact hc
    · exact .inr hx
    · exact hc) h
  obtain ⟨gs, hgs, hR⟩ := update_bounded m
  rw [h] at hgs
  simp only at hgs
  have vin : ∀ x ∈ m.vertices, x ∈ m.floats := fun x hx => by simp [Mesh.floats, hx]
  have fin : ∀ {x}, (x = FArith.zero ∨ x ∈ m.vertices) → (x = FArith.zero ∨ x ∈ m.floats) :=
    fun h => h.imp_right (vin _)
  intro x hx
  simp only [Mesh.floats, List.mem_append, List.mem_flatMap] at hx
  have hR' : List.Forall₂ (GeomBounded m) m.geoms m'.geoms := by rw [hgs]; exact hR
  rcases hx with (hx | ⟨g', hg', l', hl', hx⟩) | ⟨g', hg', l', hl', a', ha', hx⟩
  · rw [hv] at hx; exact .inr (vin x hx)
  · obtain ⟨g, hg, hG⟩ := forall₂_mem_right hR' hg'
    obtain ⟨l, hl, hL⟩ := forall₂_mem_right hG.lods hl'
    obtain ⟨h1, -⟩ := ha g' hg' l' hl'
    have hin : ∀ x ∈ l.nodeFloats, x ∈ m.floats := fun x hx => by
      simp only [Mesh.floats, List.mem_append, List.mem_flatMap]
      exact .inl (.inr ⟨g, hg, l, hl, hx⟩)
    rw [hL.fields] at hx
    simp only [Lod.nodeFloats, List.mem_append] at hx
    rcases hx with (((hx | hx) | hx) | hx) | hx
    · exact fin (h1 x (by simp [hx]))
    · exact fin (h1 x (by simp [hx]))
    · exact .inr (hin x (by simp [Lod.nodeFloats, hx]))
    · exact .inr (hin x (by simp only [Lod.nodeFloats, List.mem_append]; exact .inl (.inr hx)))
    · exact .inr (hin x (by simp only [Lod.nodeFloats, List.mem_append]; exact .inr hx))
  · obtain ⟨g, hg, hG⟩ := forall₂_mem_right hR' hg'
    obtain ⟨l, hl, hL⟩ := forall₂_mem_right hG.lods hl'
    obtain ⟨a, haa, hA⟩ := forall₂_mem_right hL.mats ha'
    obtain ⟨-, h2⟩ := ha g' hg' l' hl'
    rcases hA.bounds with ⟨e1, e2⟩ | ⟨hb, -, -⟩
    · refine .inr ?_
      simp only [Mesh.floats, List.mem_append, List.mem_flatMap]
      refine .inr ⟨g, hg, l, hl, a, haa, ?_⟩
      unfold Mat.floats at hx ⊢
      rwa [e1, e2] at hx
    · exact fin ((h2 a' ha' hb).2.2 x hx)

end

/-! ## Comparing a mesh with an equal one -/

theorem assertLists_same {α : Type} {eq : α → α → Bool} (l : List α) :
    assertLists eq l l = true ↔ ∀ x ∈ l, eq x x = true := by
  induction l with
  | nil => simp [assertLists]
  | cons a l ih => simp [assertLists, ih]

theorem eqEach_same {α : Type} {eq : α → α → Except Err Bool} (l : List α) :
    eqEach eq l l = .ok true ↔ ∀ x ∈ l, eq x x = .ok true := by
  induction l with
  | nil => simp [eqEach]
  | cons a l ih =>
    rw [eqEach]
    rcases h : eq a a with e | _ | _
    · simp [h]
    · simp [h]
    · simp [h, ih]

theorem thenAssert_true {a : Bool} {r : Except Err Bool} :
    thenAssert a r = .ok true ↔ a = true ∧ r = .ok true := by
  unfold thenAssert
  cases a <;> simp

/-! ## The objects -/

theorem construct_loaded {pl : Plat} {fs : FS} {name : Str} {fl : Flags} {o : Obj F64}
    (h : construct pl fs (some name) fl = .ok o) : o.filename = name ∧ o.isLoaded = true ∧
      ∃ file, fs.read name = .ok file ∧ load pl (kindOfName name) file = .ok o.mesh := by
  rcases name with _ | ⟨c, cs⟩
  · cases h
  · unfold construct baseInit at h
    simp only at h
    rcases hr : fs.read (c :: cs) with e | file
    · rw [hr] at h; cases h
    · rw [hr] at h
      simp only at h
      rcases hl : load (F := F64) pl (kindOfName (c :: cs)) file with e | m
      · rw [hl] at h; cases h
      · rw [hl] at h
        cases h
        exact ⟨rfl, rfl, file, rfl, hl⟩

theorem update_wf [FArith F] {m m' : Mesh F} (h : (updateBoundaries m).1 = m') (hw : MeshWF m) :
    MeshWF m' := by
  obtain ⟨gs, hgs, hR⟩ := update_bounded m
  rw [h] at hgs
  rw [hgs]
  refine ⟨?_, ?_, hw.vattrs, hw.vertformat, hw.vertices, hw.not_one, hw.index, hw.u2⟩
  · rw [← hw.geoms]; exact hR.length_eq.symm
  · intro g hg
    obtain ⟨g0, hg0, hG⟩ := forall₂_mem_right hR hg
    exact hG.wf (hw.geom g0 hg0)

theorem update_no_nan {m m' : Mesh F64} (h : updateBoundaries m = (m', none)) :
    ∀ g ∈ m'.geoms, ∀ l ∈ g.lods, (∀ x ∈ l.min.floats ++ l.max.floats, x.isNaN = false) ∧
      ∀ a ∈ l.materials, a.AllBounds m fun x => x.isNaN = false := by
  refine update_all (by decide) (fun x _ c hc => ?_) h
  have hlt : ∀ {a b : F64}, FArith.lt a b = true → a.isNaN = false ∧ b.isNaN = false := by
    intro a b h
    change F64.lt' a b = true at h
    simp only [F64.lt', Bool.and_eq_true, Bool.not_eq_true'] at h
    exact h.1
  unfold minUpd maxUpd
  constructor <;> split
  · exact (hlt ‹_›).1
  · exact hc
  · exact (hlt ‹_›).2
  · exact hc

theorem forall₂_mem_left {α β : Type} {R : α → β → Prop} {l : List α} {r : List β}
    (h : List.Forall₂ R l r) {a : α} (ha : a ∈ l) : ∃ b ∈ r, R a b := by
  obtain ⟨b, hb, hR⟩ := forall₂_mem_right (R := fun y x => R x y) h.flip ha
  exact ⟨b, hb, hR⟩

theorem eqLod_self {l : Lod F64} (hb : ∀ r ∈ l.rigs, r.bones.length = r.bonenum.toNat) :
    eqLod l l = .ok true ↔ (∀ x ∈ l.nodeFloats, F64.isNaN x = false) ∧
      ∀ a ∈ l.materials, ∀ x ∈ optFloats a.mmin, F64.isNaN x = false := by
  have h := eqLod_map id l hb
  simp only [id, numEq_self] at h
  rwa [Lod.map_id] at h

theorem writeTests_self {m m' : Mesh F64} (hw : MeshWF m) (hb : updateBoundaries m = (m', none)) :
    writeTests m' m' = .ok true ↔ ∀ x ∈ m.keptFloats, x.isNaN = false := by
  have hw' : MeshWF m' := update_wf (by rw [hb]) hw
  have hn := update_no_nan hb
  obtain ⟨gs, hgs, hR⟩ := update_bounded m
  rw [hb] at hgs
  simp only at hgs
  have hv : m'.vertices = m.vertices := by rw [hgs]
  have hR' : List.Forall₂ (GeomBounded m) m.geoms m'.geoms := by rw [hgs]; exact hR
  have hkb : m.bounded = false → ∀ g ∈ m'.geoms, ∀ l ∈ g.lods, ∀ a ∈ l.materials, a.mmin = none := by
    intro hf g hg l hl a ha
    have h1 := (((hw'.geom g hg).mats l hl).each a ha).mmin
    have h2 : m'.bounded = m.bounded := by rw [hgs]; rfl
    rw [← h2] at hf
    have h3 : a.mmin.isSome = m'.bounded := h1
    rw [hf] at h3
    exact Option.not_isSome_iff_eq_none.1 (by rw [h3]; decide)
  have key : writeTests m' m' = .ok true ↔ (∀ x ∈ m'.vertices, x.isNaN = false) ∧
      ∀ g ∈ m'.geoms, ∀ l ∈ g.lods, eqLod l l = .ok true := by
    unfold writeTests
    simp only [thenAssert_true, assertLists_same, eqEach_same, assertLods, decide_true, true_and,
      implies_true]
    have e1 : eqHead m'.head m'.head = true := by simp [eqHead]
    have e2 : ∀ g ∈ m'.geoms, eqGeom g g = true := fun g _ => by simp [eqGeom]
    have e3 : ∀ a ∈ m'.vattrs, eqVAttr a a = true := fun a _ => by simp [eqVAttr]
    have e4 : ∀ x : F64, x.feq x = true ↔ x.isNaN = false := fun x => by
      rw [feq_iff, numEq_self]
    simp only [e1, e4, true_and]
    exact ⟨fun h => ⟨h.2.2.1, h.2.2.2⟩, fun h => ⟨e2, e3, h.1, h.2⟩⟩
  rw [key]
  constructor
  · rintro ⟨h1, h2⟩ x hx
    simp only [Mesh.keptFloats, List.mem_append, List.mem_flatMap] at hx
    rcases hx with hx | ⟨g, hg, l, hl, hx⟩
    · exact h1 x (by rw [hv]; exact hx)
    · obtain ⟨g', hg', hG⟩ := forall₂_mem_left hR' hg
      obtain ⟨l', hl', hL⟩ := forall₂_mem_left hG.lods hl
      refine ((eqLod_self ((hw'.geom g' hg').nodes l' hl').bones).1 (h2 g' hg' l' hl')).1 x ?_
      rw [hL.fields]
      simp only [Lod.frameFloats, List.mem_append] at hx
      simp only [Lod.nodeFloats, List.mem_append]
      rcases hx with (hx | hx) | hx
      · exact .inl (.inl (.inr hx))
      · exact .inl (.inr hx)
      · exact .inr hx
  · intro h
    refine ⟨fun x hx => h x (by simp [Mesh.keptFloats, ← hv, hx]), fun g' hg' l' hl' => ?_⟩
    rw [eqLod_self ((hw'.geom g' hg').nodes l' hl').bones]
    obtain ⟨n1, n2⟩ := hn g' hg' l' hl'
    obtain ⟨g, hg, hG⟩ := forall₂_mem_right hR' hg'
    obtain ⟨l, hl, hL⟩ := forall₂_mem_right hG.lods hl'
    have hin : ∀ x ∈ l.frameFloats, x.isNaN = false := fun x hx => h x (by
      simp only [Mesh.keptFloats, List.mem_append, List.mem_flatMap]
      exact .inr ⟨g, hg, l, hl, hx⟩)
    refine ⟨fun x hx => ?_, fun a ha x hx => ?_⟩
    · rw [hL.fields] at hx
      simp only [Lod.nodeFloats, List.mem_append] at hx
      simp only [Lod.frameFloats, List.mem_append] at hin
      rcases hx with (((hx | hx) | hx) | hx) | hx
      · exact n1 x (by simp [hx])
      · exact n1 x (by simp [hx])
      · exact hin x (.inl (.inl hx))
      · exact hin x (.inl (.inr hx))
      · exact hin x (.inr hx)
    · rcases hbd : m.bounded with _ | _
      · rw [hkb hbd g' hg' l' hl' a ha] at hx
        simp [optFloats] at hx
      · exact (n2 a ha hbd).2.2 x (by simp [hx])

end Bf2
