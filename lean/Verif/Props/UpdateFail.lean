import Verif.UpdateFailLemmas
import Verif.Props.Bounds

/-!
# C139: when `update_boundaries` raises
-/

namespace Bf2

section
variable {F : Type} [FArith F]

/-- **C139.** Without vertices nothing is raised, whatever the attributes. -/
theorem C139_no_vertices (m : Mesh F) (h : ∀ a ∈ m.mats, a.vnum ≤ 0) : (updateBoundaries m).2 = none :=
  update_ok_of fun a ha v hv _ => absurd (h a ha) (by omega)

/-- A vertex, and an attribute not marked unused of unknown type or usage: `ValueError`, also for
meshes without bounds. -/
theorem C139_unknown_attribute (m : Mesh F) (hf : m.vertformat ≠ 0) (hv : ∃ a ∈ m.mats, 0 < a.vnum)
    (h : ∃ b ∈ m.vattrs, b.flag ≠ 255 ∧ (typeFloats b.vartype = none ∨ ¬ KnownUsage b.usage)) :
    (updateBoundaries m).2 = some .valueError :=
  (update_err_of fun _ _ _ _ _ => boundVertex_unknown hf h).1 hv

/-- A vertex, but no position: `AttributeError`. -/
theorem C139_no_position (m : Mesh F) (hb : Bounded m) (hf : m.vertformat ≠ 0)
    (hv : ∃ a ∈ m.mats, 0 < a.vnum)
    (hk : ∀ b ∈ m.vattrs, b.flag ≠ 255 → (∃ n, typeFloats b.vartype = some n) ∧ KnownUsage b.usage)
    (hp : ∀ b ∈ m.vattrs, ¬ (b.usage = 0 ∧ b.flag ≠ 255)) :
    (updateBoundaries m).2 = some .attributeError :=
  (update_err_of fun _ _ _ _ _ => boundVertex_none hb hf hk hp).1 hv

/-- A vertex, but a position of fewer than three floats or one that does not end inside the vertex:
`IndexError`. -/
theorem C139_short_position {vs o n : Nat} {m : Mesh F} {p : VAttr} (hb : Bounded m)
    (hv : ∃ a ∈ m.mats, 0 < a.vnum) (h0 : ∀ a ∈ m.mats, 0 ≤ a.vstart)
    (hk : ∀ b ∈ m.vattrs, b.flag ≠ 255 → (∃ n, typeFloats b.vartype = some n) ∧ KnownUsage b.usage)
    (hsz : VertexSize m.vattrs vs) (hp : LastPosition m.vattrs p) (hs : StartsAt m.vertformat p o)
    (hn : typeFloats p.vartype = some n) (hl : n < 3 ∨ vs < o + 3) :
    (updateBoundaries m).2 = some .indexError :=
  (update_err_of fun a ha _ _ _ => boundVertex_short hb hs.1 hk hsz hp hs hn (h0 a ha) hl).1 hv

/-- A mesh without bounds needs no position. -/
theorem C139_unbounded (m : Mesh F) (hb : ¬ Bounded m) (hf : m.vertformat ≠ 0)
    (hk : ∀ b ∈ m.vattrs, b.flag ≠ 255 → (∃ n, typeFloats b.vartype = some n) ∧ KnownUsage b.usage) :
    (updateBoundaries m).2 = none :=
  update_ok_of fun _ _ _ _ s => ⟨s, boundVertex_any hb hf hk⟩

/-- Exactly when nothing is raised. -/
theorem C139_ok_iff {vs : Nat} (m : Mesh F) (hf : m.vertformat ≠ 0) (hsz : VertexSize m.vattrs vs)
    (hin : ∀ a ∈ m.mats, VertsInside vs m a)
    (hst : ∀ b ∈ m.vattrs, b.flag ≠ 255 → ∃ q, StartsAt m.vertformat b q) :
    (updateBoundaries m).2 = none ↔
      (∀ a ∈ m.mats, a.vnum = 0) ∨ AttrsKnown m ∧ (Bounded m → ∃ p o, PositionAt vs o m p) := by
  constructor
  · intro h
    by_cases hv : ∃ a ∈ m.mats, 0 < a.vnum
    · right
      have hk : ∀ b ∈ m.vattrs, b.flag ≠ 255 →
          (∃ n, typeFloats b.vartype = some n) ∧ KnownUsage b.usage := by
        by_contra hn
        push Not at hn
        obtain ⟨b, hb, h1, h2⟩ := hn
        rw [C139_unknown_attribute m hf hv ⟨b, hb, h1, ?_⟩] at h
        · cases h
        · rcases ht : typeFloats b.vartype with _ | n
          · exact .inl rfl
          · exact .inr (h2 ⟨n, ht⟩)
      refine ⟨fun b hb hb' => ⟨(hk b hb hb').2, (hk b hb hb').1, hst b hb hb'⟩, fun hB => ?_⟩
      by_cases hp : ∀ b ∈ m.vattrs, ¬ (b.usage = 0 ∧ b.flag ≠ 255)
      · rw [C139_no_position m hB hf hv hk hp] at h
        cases h
      · obtain ⟨p, hp⟩ := last_position hp
        obtain ⟨hp1, hp2⟩ : p ∈ m.vattrs ∧ p.flag ≠ 255 := by
          obtain ⟨pre, post, e, h1, -⟩ := hp
          exact ⟨by rw [e]; simp, h1.2⟩
        obtain ⟨o, ho⟩ := hst p hp1 hp2
        obtain ⟨⟨n, hn⟩, -⟩ := hk p hp1 hp2
        refine ⟨p, o, hp, ho, ?_, ?_⟩
        · by_contra hw
          have h3 : n < 3 := by
            unfold typeFloats at hn
            split at hn <;> simp_all <;> omega
          rw [C139_short_position hB hv (fun a ha => (hin a ha).1) hk hsz hp ho hn (.inl h3)] at h
          cases h
        · by_contra hw
          rw [C139_short_position hB hv (fun a ha => (hin a ha).1) hk hsz hp ho hn (.inr (by omega))] at h
          cases h
    · left
      intro a ha
      have h1 := (hin a ha).2.1
      have h2 : ¬ 0 < a.vnum := fun h => hv ⟨a, ha, h⟩
      omega
  · rintro (h | ⟨hk, hp⟩)
    · exact C139_no_vertices m fun a ha => (h a ha).le
    · by_cases hB : Bounded m
      · obtain ⟨p, o, hp⟩ := hp hB
        exact update_ok hsz hp hk hin
      · exact C139_unbounded m hB hf fun b hb hb' => ⟨(hk b hb hb').2.1, (hk b hb hb').1⟩

end

/-- `boxed` with other vertex attributes. -/
def boxedWith (attrs : List VAttr) : Mesh F64 := { boxed (flt 0) boxedVerts with vattrs := attrs }

/-- Cases for each: an unknown usage, an unknown type, no position, a position marked unused, a
position of two floats, one beyond the end of the vertex, and the same without vertices and for a mesh
without bounds. -/
example :
    (∃ a ∈ (boxedWith []).mats, 0 < a.vnum) ∧ (boxedWith []).vertformat ≠ 0 ∧ Bounded (boxedWith []) ∧
    (updateBoundaries (boxedWith [⟨0, 0, 2, 0⟩, ⟨0, 12, 2, 14⟩])).2 = some .valueError ∧
    (updateBoundaries (boxedWith [⟨0, 0, 2, 0⟩, ⟨0, 12, 5, 3⟩])).2 = some .valueError ∧
    (updateBoundaries (boxedWith [⟨0, 0, 2, 3⟩])).2 = some .attributeError ∧
    (updateBoundaries (boxedWith [⟨255, 0, 2, 0⟩, ⟨0, 0, 2, 3⟩])).2 = some .attributeError ∧
    (updateBoundaries (boxedWith [⟨0, 0, 1, 0⟩])).2 = some .indexError ∧
    (updateBoundaries (boxedWith [⟨0, 4, 2, 0⟩])).2 = some .indexError ∧
    (updateBoundaries { boxedWith [⟨0, 4, 2, 77⟩] with geoms := [] }).2 = none ∧
    (updateBoundaries { boxedWith [⟨0, 4, 2, 3⟩] with head := ⟨0, 10, 0, 0, 0⟩ }).2 = none := by
  refine ⟨by decide +kernel, by decide, ⟨rfl, rfl⟩, ?_⟩
  decide +kernel

/-- The hypotheses of the short position. -/
example : VertexSize (boxedWith [⟨0, 4, 2, 0⟩]).vattrs 3 ∧
    LastPosition (boxedWith [⟨0, 4, 2, 0⟩]).vattrs ⟨0, 4, 2, 0⟩ ∧
    StartsAt (boxedWith [⟨0, 4, 2, 0⟩]).vertformat ⟨0, 4, 2, 0⟩ 1 ∧ typeFloats 2 = some 3 ∧ 3 < 1 + 3 ∧
    (∀ a ∈ (boxedWith [⟨0, 4, 2, 0⟩]).mats, VertsInside 3 (boxedWith [⟨0, 4, 2, 0⟩]) a) ∧
    (∀ b ∈ (boxedWith [⟨0, 4, 2, 0⟩]).vattrs, b.flag ≠ 255 →
      ∃ q, StartsAt (boxedWith [⟨0, 4, 2, 0⟩]).vertformat b q) :=
  ⟨⟨[3], rfl, rfl⟩, ⟨[], [], rfl, by decide, by simp⟩, by decide, rfl, by decide, by decide +kernel,
    fun b hb _ => ⟨1, by
      simp only [boxedWith, List.mem_singleton] at hb
      subst hb
      decide⟩⟩

end Bf2
