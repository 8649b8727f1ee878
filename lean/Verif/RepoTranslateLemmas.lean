import Verif.RepoTestsLemmas
import Verif.RepoTestsFloat
import Verif.AlgebraLemmas
import Verif.BoundsLemmas

/-! # Lemmas for C122 -/

namespace Bf2

section
variable {F : Type}

theorem assertEach_true {α : Type} {f : α → Except Err Bool} {l : List α} :
    assertEach f l = .ok true ↔ ∀ a ∈ l, f a = .ok true := by
  induction l with
  | nil => simp [assertEach]
  | cons a l ih =>
    rw [assertEach]
    rcases h : f a with e | _ | _
    · simp [h]
    · simp [h]
    · simp [h, ih]

theorem attrs_ok {m : Mesh F} (hattr : AttrsKnown m) (buf : List F) :
    ∃ r, foldE (vertexAttrs m.vertformat buf) none m.vattrs = .ok r := by
  obtain ⟨r, hr, -⟩ := foldE_ok (f := vertexAttrs m.vertformat buf) (fun _ => True) (l := m.vattrs)
    (fun s b hb _ => by
      unfold vertexAttrs
      split
      · exact ⟨_, rfl, trivial⟩
      · rename_i hf
        obtain ⟨hu, ⟨k, hk⟩, q, hq⟩ := hattr b hb hf
        rw [attrPos_startsAt hq]
        simp only
        rw [declLen_eq, hk]
        simp only
        rw [if_pos ((usageKnown_iff _).2 hu)]
        split <;> exact ⟨_, rfl, trivial⟩) (s := none) trivial
  exact ⟨r, hr⟩

/-- What the test reads as the position of a vertex. -/
theorem read_position {vs o : Nat} {m : Mesh F} {p : VAttr} {a : Mat F} {v : Nat}
    (hpos : PositionAt vs o m p) (h3 : p.vartype = 2) (hattr : AttrsKnown m)
    (hin : VertsInside vs m a) (hv : (v : Int) < a.vnum) :
    ∃ x : Vec3 F, vec3At m.vertices ((a.vstart.toNat + v) * vs + o) = some x ∧
      foldE (vertexAttrs m.vertformat (pySlice m.vertices ((a.vstart + v) * vs)
        ((a.vstart + v) * vs + vs))) none m.vattrs = .ok (some [x.x, x.y, x.z]) := by
  obtain ⟨x, hx, ht⟩ := toVec3_position (n := 3) hin hv (Nat.le_refl _) hpos.fits
  obtain ⟨r, hr⟩ := attrs_ok hattr (pySlice m.vertices ((a.vstart + v) * vs) ((a.vstart + v) * vs + vs))
  have := vertexAttrs_last hpos.last hpos.start (n := 3) (by rw [h3]; rfl) hr
  refine ⟨x, hx, ?_⟩
  rw [hr, this]
  have e4 : ((o : Int) + (3 : Nat)) = ((o + 3 : Nat) : Int) := by push_cast; rfl
  rw [e4, pySlice_nat] at ht ⊢
  generalize hl : List.take (o + 3 - o) _ = l at ht ⊢
  have hlen : l.length ≤ 3 := by rw [← hl, List.length_take]; omega
  rcases l with _ | ⟨x0, _ | ⟨x1, _ | ⟨x2, _ | ⟨x3, l⟩⟩⟩⟩
  · cases ht
  · cases ht
  · cases ht
  · cases ht; rfl
  · simp at hlen; omega

end

/-- The materials of a mesh with updated bounds have the vertices they had. -/
theorem update_mats {F : Type} [FArith F] {m m' : Mesh F} (h : (updateBoundaries m).1 = m') :
    List.Forall₂ (MatBounded m) m.mats m'.mats := by
  obtain ⟨gs, hgs, hR⟩ := update_bounded m
  rw [h] at hgs
  have hR' : List.Forall₂ (GeomBounded m) m.geoms m'.geoms := by rw [hgs]; exact hR
  have flat : ∀ {α β γ δ : Type} {R : α → β → Prop} {S : γ → δ → Prop} {f : α → List γ} {g : β → List δ}
      {l : List α} {r : List β}, (∀ a b, R a b → List.Forall₂ S (f a) (g b)) → List.Forall₂ R l r →
      List.Forall₂ S (l.flatMap f) (r.flatMap g) := by
    intro α β γ δ R S f g l r hfg h
    induction h with
    | nil => exact .nil
    | cons h1 _ ih => rw [List.flatMap_cons, List.flatMap_cons]; exact List.rel_append (hfg _ _ h1) ih
  exact flat (fun g g' hg => flat (fun l l' hl => hl.mats) hg.lods) hR'

theorem translateTest_mats {F : Type} [FArith F] (eq : F → F → Bool) (old : List F) (m : Mesh F) (d : List F) :
    translateTest eq old m d = .ok true ↔ ∀ a ∈ m.mats, ∀ v < a.vnum.toNat,
      assertMovedVertex eq old m d a v = .ok true := by
  unfold translateTest
  simp only [assertEach_true, Mesh.mats, Geom.mats, List.mem_flatMap, List.mem_range]
  constructor
  · rintro h a ⟨g, hg, l, hl, ha⟩ v hv
    exact h g hg l hl a ha v hv
  · intro h g hg l hl a ha v hv
    exact h a ⟨g, hg, l, hl, ha⟩ v hv

theorem translateTest_moved {m m1 m2 : Mesh F64} {vs o : Nat} {p : VAttr} {d0 d1 d2 : F64}
    (tiled : TiledVerts vs m) (first : FirstPosition m.vattrs p) (pos : PositionAt vs o m p)
    (three : p.vartype = 2) (known : AttrsKnown m)
    (moved : translate m [d0, d1, d2] = (m1, none)) (updated : updateBoundaries m1 = (m2, none)) :
    translateTest F64.feq m.vertices m2 [d0, d1, d2] = .ok true ↔
      ∀ a ∈ m.mats, ∀ x, PosOf vs o m a x →
        NumEq (F64.sub (F64.add x.x d0) d0) x.x ∧ NumEq (F64.sub (F64.add x.y d1) d1) x.y ∧
        NumEq (F64.sub (F64.add x.z d2) d2) x.z := by
  have hfit : o + [d0, d1, d2].length ≤ vs := pos.fits
  have ht := translate_tiled tiled first pos.start hfit
  rw [moved] at ht
  have hm1 : m1 = { m with vertices := movedAll vs o [d0, d1, d2] m.vertices } := congrArg Prod.fst ht
  obtain ⟨gs, hgs, -⟩ := update_bounded m1
  rw [updated] at hgs
  simp only at hgs
  have hv2 : m2.vertices = movedAll vs o [d0, d1, d2] m.vertices := by rw [hgs, hm1]
  have ha2 : m2.vattrs = m.vattrs := by rw [hgs, hm1]
  have hf2 : m2.vertformat = m.vertformat := by rw [hgs, hm1]
  have hmats : List.Forall₂ (MatBounded m1) m.mats m2.mats := by
    have := update_mats (m := m1) (m' := m2) (by rw [updated])
    rwa [show m1.mats = m.mats by rw [hm1]; rfl] at this
  -- one vertex
  have one : ∀ a ∈ m.mats, ∀ a', MatBounded m1 a a' → ∀ v < a.vnum.toNat, ∃ x : Vec3 F64,
      vec3At m.vertices ((a.vstart.toNat + v) * vs + o) = some x ∧
      (assertMovedVertex F64.feq m.vertices m2 [d0, d1, d2] a' v = .ok true ↔
        NumEq (F64.sub (F64.add x.x d0) d0) x.x ∧ NumEq (F64.sub (F64.add x.y d1) d1) x.y ∧
        NumEq (F64.sub (F64.add x.z d2) d2) x.z) := by
    intro a ha a' hb v hv
    have hs : a'.vstart = a.vstart := by rw [hb.fields]
    have hin := tiled.inside a ha
    have hv' : (v : Int) < a.vnum := by omega
    obtain ⟨x, hx, hr⟩ := read_position pos three known hin hv'
    obtain ⟨y, hy, hr'⟩ := read_position (m := m1) (p := p) (a := a) (v := v)
      (pos.congr (by rw [hm1]) (by rw [hm1])) three (by rw [hm1]; exact known)
      (by rw [hm1]; simpa [VertsInside, movedAll_length] using hin) hv'
    have hy' : y = ⟨FArith.add x.x d0, FArith.add x.y d1, FArith.add x.z d2⟩ := by
      have : m1.vertices = movedAll vs o [d0, d1, d2] m.vertices := by rw [hm1]
      rw [this, vec3At_moved (by omega), hx] at hy
      exact (Option.some.inj hy).symm
    refine ⟨x, hx, ?_⟩
    have hv1 : m1.vertices = m2.vertices := by rw [hv2, hm1]
    have ha1 : m1.vattrs = m.vattrs := by rw [hm1]
    have hf1 : m1.vertformat = m.vertformat := by rw [hm1]
    rw [hv1, ha1, hf1] at hr'
    unfold assertMovedVertex
    rw [ha2, hf2, (vertexSize_iff _ _).2 tiled.size, hs]
    simp only
    rw [hr, hr', hy']
    simp only [List.zip_cons_cons, List.zip_nil_right, List.map_cons, List.map_nil, assertLists,
      Bool.and_true, Except.ok.injEq, Bool.and_eq_true, feq_iff]
    exact Iff.rfl
  rw [translateTest_mats]
  constructor
  · rintro h a ha x ⟨v, hv, hx⟩
    obtain ⟨a', ha', hb⟩ := forall₂_mem_left hmats ha
    have hn : a'.vnum = a.vnum := by rw [hb.fields]
    obtain ⟨y, hy, hi⟩ := one a ha a' hb v (by omega)
    rw [hx] at hy
    cases hy
    exact hi.1 (h a' ha' v (by omega))
  · intro h a' ha' v hv
    obtain ⟨a, ha, hb⟩ := forall₂_mem_right hmats ha'
    have hn : a'.vnum = a.vnum := by rw [hb.fields]
    obtain ⟨y, hy, hi⟩ := one a ha a' hb v (by omega)
    exact hi.2 (h a ha y ⟨v, by omega, hy⟩)

end Bf2
