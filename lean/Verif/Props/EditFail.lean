import Verif.EditFailLemmas
import Verif.Props.Rotate

/-!
# C142: when `translate` and `rotate` raise

C24 and C26 name causes; here are all of them.
-/

namespace Bf2

variable {F : Type} [FArith F]

/-- **C142.** `translate` raises nothing but these, whatever the mesh. -/
theorem C142_translate_errors (m : Mesh F) (d : List F) {e : Err} (h : (translate m d).2 = some e) :
    e = .valueError ∨ e = .zeroDivisionError ∨ e = .unboundLocalError ∨ e = .indexError := by
  unfold translate at h
  rcases he : editVertices (translateVertex m d) m with e' | l
  · rw [he] at h
    cases h
    rcases edit_errors he with h | ⟨v, hv⟩
    · exact .inl h
    · exact .inr (translateVertex_errors hv)
  · rw [he] at h
    cases h

/-- **C142.** No attribute in use has a float: `ValueError` from both, if there is a material. -/
theorem C142_no_floats [Libm F] (m : Mesh F) (size : VertexSize m.vattrs 0) (hm : m.mats ≠ []) (d : List F)
    (y p r : F) (rest : List F) : translate m d = (m, some .valueError) ∧
      rotate m (y :: p :: r :: rest) = (m, some .valueError) := by
  have h : ∀ edit, editVertices edit m = .error .valueError := by
    intro edit
    have hmat : ∀ a, editMat edit m a = .error .valueError := by
      intro a
      rw [editMat, (vertexSize_iff _ _).2 size]
      rfl
    rw [editVertices_flat, flatMapE_error (e := .valueError) fun a _ => .inr (hmat a)]
    obtain ⟨a, ha⟩ := List.exists_mem_of_ne_nil _ hm
    exact ⟨a, ha, hmat a⟩
  constructor
  · rw [translate, h]; rfl
  · rw [rotate, h]; rfl

/-- **C142.** A vertex and a position, and `vertformat` 0: `ZeroDivisionError`. -/
theorem C142_translate_zero_format {vs : Nat} {m : Mesh F} {d : List F} (inside : Inside vs m)
    (vertex : ∃ a ∈ m.mats, 0 < a.vnum) (zero : m.vertformat = 0) {p : VAttr}
    (first : FirstPosition m.vattrs p) : translate m d = (m, some .zeroDivisionError) := by
  rw [translate, edit_error (e := .zeroDivisionError) inside (fun v _ => ?_) vertex]
  · rfl
  · unfold translateVertex
    rw [zero, posOffset_zero first]

/-- **C142.** Exactly when `translate` raises nothing: there is no vertex, or no position and nothing to add,
or the numbers to add fit between the start of the position and the end of the vertex. -/
theorem C142_translate_ok_iff {vs : Nat} {m : Mesh F} {d : List F} (inside : Inside vs m)
    (whole : ∀ b ∈ m.vattrs, b.usage = 0 → b.flag ≠ 255 → m.vertformat ≠ 0 →
      ∃ o, StartsAt m.vertformat b o) :
    (translate m d).2 = none ↔ (∀ a ∈ m.mats, a.vnum = 0) ∨
      (∀ b ∈ m.vattrs, ¬ (b.usage = 0 ∧ b.flag ≠ 255)) ∧ d = [] ∨
      ∃ p o, FirstPosition m.vattrs p ∧ StartsAt m.vertformat p o ∧ (d = [] ∨ o + d.length ≤ vs) := by
  constructor
  · intro h
    by_cases hv : ∃ a ∈ m.mats, 0 < a.vnum
    · right
      by_cases hp : ∀ b ∈ m.vattrs, ¬ (b.usage = 0 ∧ b.flag ≠ 255)
      · refine .inl ⟨hp, ?_⟩
        by_contra hd
        rw [C24_no_position inside hp hd hv] at h
        cases h
      · obtain ⟨p, hp⟩ := first_position hp
        by_cases h0 : m.vertformat = 0
        · rw [C142_translate_zero_format inside hv h0 hp] at h
          cases h
        · obtain ⟨hp1, hp2⟩ : p ∈ m.vattrs ∧ p.usage = 0 ∧ p.flag ≠ 255 := by
            obtain ⟨pre, post, e, h1, -⟩ := hp
            exact ⟨by rw [e]; simp, h1⟩
          obtain ⟨o, ho⟩ := whole p hp1 hp2.1 hp2.2 h0
          refine .inr ⟨p, o, hp, ho, ?_⟩
          by_contra hn
          push Not at hn
          rw [C24_offset_too_long inside hp ho hn.2 hn.1 hv] at h
          cases h
    · left
      intro a ha
      have h1 := (inside.verts a ha).2.1
      have h2 : ¬ 0 < a.vnum := fun h => hv ⟨a, ha, h⟩
      omega
  · have ok : ∀ (h : ∀ v : List F, v.length = vs → ∃ w, translateVertex m d v = .ok w),
        (translate m d).2 = none := by
      intro h
      obtain ⟨l, hl⟩ := edit_ok inside h
      rw [translate, hl]
      rfl
    rintro (h | ⟨hp, rfl⟩ | ⟨p, o, hp, ho, rfl | hl⟩)
    · rw [translate, edit_none inside h]
      rfl
    · exact ok fun v _ => ⟨v, by unfold translateVertex; rw [posOffset_none hp]⟩
    · exact ok fun v _ => ⟨v, by unfold translateVertex; rw [posOffset_first hp ho]; rfl⟩
    · exact ok fun v hv => ⟨_, by
        unfold translateVertex
        rw [posOffset_first hp ho]
        exact addAll_eq o d 0 v (by omega)⟩

variable [Libm F]

/-- **C142.** `rotate` raises nothing but these, whatever the mesh. -/
theorem C142_rotate_errors (m : Mesh F) (rotation : List F) {e : Err} (h : (rotate m rotation).2 = some e) :
    e = .indexError ∨ e = .valueError ∨ e = .zeroDivisionError := by
  unfold rotate at h
  split at h
  · rename_i y p r rest
    dsimp only at h
    rcases he : editVertices (rotateVertex m ⟨Libm.radians y, Libm.radians p, Libm.radians r⟩) m with e' | l
    · rw [he] at h
      cases h
      rcases edit_errors he with h | ⟨v, hv⟩
      · exact .inr (.inl h)
      · obtain ⟨t, a, h⟩ := foldE_errors hv
        rcases rotateAttr_errors h with h | h | h
        · exact .inr (.inr h)
        · exact .inr (.inl h)
        · exact .inl h
    · rw [he] at h
      cases h
  · cases h
    exact .inl rfl

/-- **C142.** Exactly when `rotate` raises nothing: three angles are given, and there is no vertex, or the
vertices can be turned and, if there is anything to turn, the angles have a cosine and a sine. -/
theorem C142_rotate_ok_iff {vs : Nat} {m : Mesh F} {rotation : List F} (inside : Inside vs m)
    (whole : ∀ b ∈ m.vattrs, VectorAttr b → m.vertformat ≠ 0 → ∃ o, StartsAt m.vertformat b o) :
    (rotate m rotation).2 = none ↔ ∃ y p r rest, rotation = y :: p :: r :: rest ∧
      ((∀ a ∈ m.mats, a.vnum = 0) ∨
        TurnFits m.vertformat vs m.vattrs ∧ ((∃ b ∈ m.vattrs, VectorAttr b) → AnglesFine y p r)) := by
  rcases rotation with _ | ⟨y, _ | ⟨p, _ | ⟨r, rest⟩⟩⟩
  · simp [rotate]
  · simp [rotate]
  · simp [rotate]
  · constructor
    · intro h
      refine ⟨y, p, r, rest, rfl, ?_⟩
      by_cases hv : ∃ a ∈ m.mats, 0 < a.vnum
      · right
        by_contra hn
        obtain ⟨e, he⟩ := turn_misfit (F := F) (r := ⟨Libm.radians y, Libm.radians p, Libm.radians r⟩) whole
          (fun hn' => hn ⟨hn'.1, fun hb => by
            obtain ⟨cy, sy, cp, sp, cr, sr, ht⟩ := hn'.2 hb
            exact trig_anglesFine ht⟩)
        have he' : editVertices (rotateVertex m ⟨Libm.radians y, Libm.radians p, Libm.radians r⟩) m = .error e :=
          edit_error inside he hv
        rw [rotate, he'] at h
        cases h
      · left
        intro a ha
        have h1 := (inside.verts a ha).2.1
        have h2 : ¬ 0 < a.vnum := fun h => hv ⟨a, ha, h⟩
        omega
    · rintro ⟨y, p, r, rest, h, h'⟩
      cases h
      rw [rotate]
      rcases h' with h | ⟨h, ha⟩
      · rw [edit_none inside h]
        rfl
      · obtain ⟨l, hl⟩ := edit_ok inside
          (turn_fits h (r := ⟨Libm.radians y, Libm.radians p, Libm.radians r⟩)
            fun hb => anglesFine_trig (ha hb))
        change (setVertices m (editVertices (fun v => foldE _ v m.vattrs) m)).2 = none
        rw [hl]
        rfl

omit [FArith F] [Libm F] in
/-- Without a `FLOAT4` among them, vertices can be turned if positions, normals and tangents are `FLOAT3`
inside the vertex. -/
theorem C142_fits_iff {vs : Nat} {m : Mesh F} (no4 : ∀ b ∈ m.vattrs, VectorAttr b → b.vartype ≠ 3) :
    TurnFits m.vertformat vs m.vattrs ↔ Float3Vectors vs m := by
  have three : ∀ {t : Int} {k : Nat}, t ≠ 3 → typeFloats t = some k → 3 ≤ k → t = 2 ∧ k = 3 := by
    intro t k h3 h hk
    unfold typeFloats at h
    split at h <;> simp_all <;> omega
  unfold Float3Vectors
  generalize m.vattrs = attrs at no4
  constructor
  · intro h
    induction h with
    | nil => simp
    | other ha _ ih =>
      intro b hb hv
      rcases List.mem_cons.1 hb with rfl | hb
      · exact absurd hv ha
      · exact ih (fun b hb => no4 b (by simp [hb])) b hb hv
    | vector ha ho hk h3 hf _ ih =>
      obtain ⟨e, rfl⟩ := three (no4 _ (by simp) ha) hk h3
      intro b hb hv
      rcases List.mem_cons.1 hb with rfl | hb
      · exact ⟨e, _, ho, hf⟩
      · obtain ⟨h1, o, h2, h4⟩ := ih (fun b hb => no4 b (by simp [hb])) b hb hv
        exact ⟨h1, o, h2, by omega⟩
  · intro h
    induction attrs with
    | nil => exact .nil
    | cons a as ih =>
      have ih := ih (fun b hb => no4 b (by simp [hb])) (fun b hb => h b (by simp [hb]))
      by_cases ha : VectorAttr a
      · obtain ⟨h1, o, h2, h3⟩ := h a (by simp) ha
        refine .vector ha h2 (by rw [h1]; rfl) (le_refl 3) h3 ?_
        rw [show vs - min 3 (vs - o) + 3 = vs by omega]
        exact ih
      · exact .other ha ih

/-- **C142.** The first position, normal or tangent that cannot be turned says what is raised. -/
theorem C142_rotate_first_bad {vs : Nat} {m : Mesh F} (inside : Inside vs m)
    (vertex : ∃ a ∈ m.mats, 0 < a.vnum) {y p r : F} (fine : AnglesFine y p r) (rest : List F)
    {pre post : List VAttr} {a : VAttr} (split : m.vattrs = pre ++ a :: post)
    (good : ∀ b ∈ pre, VectorAttr b → b.vartype = 2 ∧ ∃ o, StartsAt m.vertformat b o ∧ o + 3 ≤ vs)
    (va : VectorAttr a) :
    (m.vertformat = 0 → rotate m (y :: p :: r :: rest) = (m, some .zeroDivisionError)) ∧
    (∀ o, StartsAt m.vertformat a o →
      (typeFloats a.vartype = none → rotate m (y :: p :: r :: rest) = (m, some .valueError)) ∧
      (∀ k, typeFloats a.vartype = some k → k < 3 ∨ vs < o + 3 →
        rotate m (y :: p :: r :: rest) = (m, some .indexError))) := by
  obtain ⟨cy, sy, cp, sp, cr, sr, ht⟩ := anglesFine_trig fine
  have key : ∀ e, (∀ v : List F, v.length = vs → rotateAttr m.vertformat
      ⟨Libm.radians y, Libm.radians p, Libm.radians r⟩ v a = .error e) →
      rotate m (y :: p :: r :: rest) = (m, some e) := by
    intro e h
    rw [rotate, edit_error (e := e) inside (fun v hv => ?_) vertex]
    · rfl
    · obtain ⟨w, hw, hl, -⟩ := rotateAttrs_eq ht pre good v hv
      rw [rotateVertex, split, foldE_append, hw]
      simp only
      rw [foldE, h w hl]
  refine ⟨fun h0 => key _ fun v _ => ?_, fun o ho => ⟨fun hn => key _ fun v _ => ?_, fun k hk hs =>
    key _ fun v hv => (rotateAttr_vector va ho hk).1 (by omega)⟩⟩
  · rw [rotateAttr, if_neg va.1, if_pos ((isVector_iff _).2 va.2), attrPos, if_pos h0]
  · rw [rotateAttr, if_neg va.1, if_pos ((isVector_iff _).2 va.2), attrPos_startsAt ho]
    simp only
    rw [declLen_eq, hn]

/-- Two vertices of `size` floats with other attributes. -/
def twoVertices (attrs : List VAttr) (size : Nat) : Mesh F64 :=
  meshOf (flt 0) attrs (4 * size) 2 [[(0, 1, 0, 3), (1, 1, 3, 3)]] ((List.range (2 * size)).map flt)
    [0, 0, 0, 0, 0, 0]

/-- A case for each exception of `translate`: an unknown type, no float, no position, three numbers for a
position that ends with the vertex after two, and `vertformat` 0. -/
example :
    (translate (twoVertices [⟨0, 0, 2, 0⟩, ⟨0, 12, 9, 5⟩] 3) [flt 1, flt 1, flt 1]).2 = some .valueError ∧
    (translate (twoVertices [⟨0, 0, 17, 0⟩] 3) [flt 1, flt 1, flt 1]).2 = some .valueError ∧
    (translate (twoVertices [⟨0, 0, 2, 3⟩] 3) [flt 1, flt 1, flt 1]).2 = some .unboundLocalError ∧
    (translate (twoVertices [⟨0, 0, 2, 3⟩] 3) []).2 = none ∧
    (translate (twoVertices [⟨0, 0, 1, 5⟩, ⟨0, 8, 1, 0⟩] 4) [flt 1, flt 1, flt 1]).2 = some .indexError ∧
    (translate (twoVertices [⟨0, 0, 1, 5⟩, ⟨0, 8, 1, 0⟩] 4) [flt 1, flt 1]).2 = none ∧
    (translate { twoVertices [⟨0, 0, 2, 0⟩] 3 with vertformat := 0 } [flt 1]).2 =
      some .zeroDivisionError := by
  decide +kernel

attribute [local instance] quarterTurn in
/-- The same for `rotate`, and: a `FLOAT4` position followed by a normal that ends with the vertex cannot be
turned, because turning the position moves what follows. -/
example :
    (rotate (twoVertices [⟨0, 0, 2, 0⟩] 3) [flt 1, flt 1]).2 = some .indexError ∧
    (rotate (twoVertices [⟨0, 0, 2, 0⟩] 3) [flt 1, flt 1, flt 1]).2 = none ∧
    (rotate (twoVertices [⟨0, 0, 1, 0⟩] 2) [flt 1, flt 1, flt 1]).2 = some .indexError ∧
    (rotate (twoVertices [⟨0, 0, 2, 3⟩, ⟨1, 0, 9, 0⟩] 3) [flt 1, flt 1, flt 1]).2 = some .valueError ∧
    (rotate { twoVertices [⟨0, 0, 2, 0⟩] 3 with vertformat := 0 } [flt 1, flt 1, flt 1]).2 =
      some .zeroDivisionError ∧
    (rotate (twoVertices [⟨0, 0, 3, 0⟩, ⟨0, 16, 2, 3⟩] 7) [flt 1, flt 1, flt 1]).2 = some .indexError ∧
    (rotate (twoVertices [⟨0, 0, 2, 0⟩, ⟨0, 12, 3, 3⟩] 7) [flt 1, flt 1, flt 1]).2 = none := by
  decide +kernel

attribute [local instance] quarterTurn in
/-- The hypotheses. -/
example : Inside 7 (twoVertices [⟨0, 0, 2, 0⟩, ⟨0, 12, 3, 3⟩] 7) ∧
    (∃ a ∈ (twoVertices [⟨0, 0, 2, 0⟩, ⟨0, 12, 3, 3⟩] 7).mats, 0 < a.vnum) ∧
    (∀ b ∈ (twoVertices [⟨0, 0, 2, 0⟩, ⟨0, 12, 3, 3⟩] 7).vattrs, ∃ o, StartsAt 4 b o) ∧
    TurnFits 4 7 (twoVertices [⟨0, 0, 2, 0⟩, ⟨0, 12, 3, 3⟩] 7).vattrs ∧
    AnglesFine (flt 1) (flt 1) (flt 1) ∧ VertexSize [⟨0, 0, 17, 0⟩] 0 := by
  refine ⟨⟨by decide, ⟨[3, 4], rfl, rfl⟩, by decide +kernel, by decide +kernel⟩, by decide +kernel, ?_, ?_,
    by intro a _; exact ⟨rfl, rfl⟩, ⟨[0], rfl, rfl⟩⟩
  · intro b hb
    simp only [twoVertices, meshOf, List.mem_cons, List.not_mem_nil, or_false] at hb
    rcases hb with rfl | rfl
    · exact ⟨0, by decide⟩
    · exact ⟨3, by decide⟩
  · exact .vector (o := 0) (k := 3) (by decide) (by decide) rfl (by decide) (by decide)
      (.vector (o := 3) (k := 4) (by decide) (by decide) rfl (by decide) (by decide) .nil)

end Bf2
