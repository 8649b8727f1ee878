import Verif.NumsLemmas
import Verif.Props.FloatEdit
import Verif.Props.RotError

/-!
# Integer offsets and angles: C136
-/

namespace Bf2

variable {vs o : Nat} {m : Mesh F64} {a : VAttr} {limit : Option Nat} {ns : List Num}

/-- With no integer too large or too long, `translate` does what it does with the doubles that stand for
the numbers.  An integer up to `2^53` stands for itself. -/
theorem C136_translate (m : Mesh F64) (short : ¬ TooLong limit ns) (small : ∀ n ∈ ns, ¬ TooLarge n) :
    ∃ ds, List.Forall₂ StandsFor ns ds ∧ translateNum limit m ns = translate m ds := by
  obtain ⟨ds, h1, h2⟩ := notTooLarge_all small
  refine ⟨ds, h2, ?_⟩
  unfold translateNum translate
  rw [if_neg (fun h => short ((strFails_iff limit ns).1 h)), translateVertexNum_ok h1]

theorem C136_exact {i : Int} {d : F64} (small : |i| ≤ 2 ^ 53) (stands : StandsFor (.int i) d) :
    d.value = i :=
  standsFor_exact small stands

/-- On a mesh whose materials tile the vertex array, a finite coordinate moved by an integer up to `2^53`
becomes the exact sum correctly rounded to a double. -/
theorem C136_translate_rounds (tiled : TiledVerts vs m) (first : FirstPosition m.vattrs a)
    (start : StartsAt m.vertformat a o) (fits : o + ns.length ≤ vs) (short : ¬ TooLong limit ns)
    (small : ∀ n ∈ ns, ¬ TooLarge n) :
    (translateNum limit m ns).2 = none ∧ ∀ (v k : Nat) (x : F64) (i : Int), o + k < vs →
      m.vertices[v * vs + (o + k)]? = some x → ns[k]? = some (.int i) → |i| ≤ 2 ^ 53 → x.isFin = true →
      ∃ y, (translateNum limit m ns).1.vertices[v * vs + (o + k)]? = some y ∧ Rounded (x.value + i) y := by
  obtain ⟨ds, h1, h2⟩ := C136_translate m short small
  rw [h2]
  obtain ⟨h3, h4⟩ := C71_translate_rounds tiled first start (h1.length_eq ▸ fits)
  refine ⟨h3, fun v k x i hk hx hi h53 fx => ?_⟩
  obtain ⟨hk1, hk2⟩ := List.getElem?_eq_some_iff.1 hi
  have hkd : k < ds.length := h1.length_eq ▸ hk1
  have hs := h1.get hk1 hkd
  simp only [List.get_eq_getElem, hk2] at hs
  obtain ⟨y, hy, hr, -⟩ := h4 v k x ds[k] hk hx (List.getElem?_eq_getElem hkd)
  refine ⟨y, hy, ?_⟩
  have := hr fx hs.1
  rwa [standsFor_exact h53 hs] at this

/-- Moving by the integers 1, 2 and 3. -/
example : ∃ ns, TiledVerts 4 (movable (flt 0) ((List.range 12).map flt)) ∧ 0 + ns.length ≤ 4 ∧
    ¬ TooLong (some 4300) ns ∧ (∀ n ∈ ns, ¬ TooLarge n) ∧
    (translateNum (some 4300) (movable (flt 0) ((List.range 12).map flt)) ns).1.vertices
      = [1, 3, 5, 3, 5, 7, 9, 7, 9, 11, 13, 11].map flt := by
  refine ⟨[.int 1, .int 2, .int 3], movable_tiled _ _ rfl, by decide, ?_, ?_, by decide +kernel⟩
  · rw [← strFails_iff]; decide +kernel
  · rintro n hn ⟨i, rfl, h⟩
    have h3 : |i| ≤ 3 := by
      simp only [List.mem_cons, Num.int.injEq, List.not_mem_nil, or_false] at hn
      rcases hn with rfl | rfl | rfl <;> decide
    exact absurd (le_trans h h3) (by decide +kernel)

/-- Beyond `2^53` the integer itself is rounded first: `1.0` moved by `2^53 + 1` becomes `2^53`
and not the exact sum `2^53 + 2`, though that is a double. -/
theorem C136_rounded_twice : ∃ (m : Mesh F64) (i : Int) (x y z : F64),
    TiledVerts 4 m ∧ FirstPosition m.vattrs ⟨0, 0, 2, 0⟩ ∧ StartsAt m.vertformat ⟨0, 0, 2, 0⟩ 0 ∧
    m.vertices[0]? = some x ∧ (translateNum (some 4300) m [.int i]).1.vertices[0]? = some y ∧
    i = 2 ^ 53 + 1 ∧ x.value + i = z.value ∧ y.value + 2 = z.value := by
  refine ⟨movable (flt 0) (List.replicate 12 (flt 1)), 2 ^ 53 + 1, flt 1, flt (2 ^ 53),
    flt (2 ^ 53 + 2), movable_tiled _ _ rfl, posAttrs_first, posAttrs_start, rfl, by decide +kernel, rfl,
    by decide +kernel, by decide +kernel⟩

/-- An integer that is too large for a double raises `OverflowError` at the first vertex, and the mesh
stays. -/
theorem C136_overflow (inside : Inside vs m) (first : FirstPosition m.vattrs a)
    (start : StartsAt m.vertformat a o) (fits : o + ns.length ≤ vs) (short : ¬ TooLong limit ns)
    (large : ∃ n ∈ ns, TooLarge n) (vertex : ∃ a ∈ m.mats, 0 < a.vnum) :
    translateNum limit m ns = (m, some .overflowError) := by
  unfold translateNum
  rw [if_neg (fun h => short ((strFails_iff limit ns).1 h))]
  refine editVertices_raises inside (fun v hv => ?_) vertex
  unfold translateVertexNum
  rw [posOffset_first first start]
  exact addNums_large large o 0 v (by omega)

/-- The least such integer and the largest one below it. -/
example : TooLarge (.int (2 ^ 1024 - 2 ^ 970)) ∧ ¬ TooLarge (.int (-(2 ^ 1024 - 2 ^ 970 - 1))) ∧
    ¬ TooLong (some 4300) [.int (2 ^ 1024 - 2 ^ 970)] ∧
    (translateNum (some 4300) (movable (flt 0) ((List.range 12).map flt))
      [.int (2 ^ 1024 - 2 ^ 970)]).2 = some .overflowError ∧
    (translateNum (some 4300) (movable (flt 0) ((List.range 12).map flt))
      [.int (-(2 ^ 1024 - 2 ^ 970 - 1))]).2 = none := by
  refine ⟨⟨_, rfl, le_abs_self _⟩, ?_, ?_, by decide +kernel, by decide +kernel⟩
  · rintro ⟨i, hi, h⟩
    rw [← Num.int.inj hi] at h
    exact absurd h (by decide +kernel)
  · rw [← strFails_iff]; decide +kernel

/-- An integer with more digits than Python will write as text raises `ValueError` in the log message, in
both methods, and the mesh stays, whatever it holds. -/
theorem C136_too_long [Libm F64] (m : Mesh F64) (long : TooLong limit ns) :
    translateNum limit m ns = (m, some .valueError) ∧ rotateNum limit m ns = (m, some .valueError) := by
  have h := (strFails_iff limit ns).2 long
  exact ⟨if_pos h, if_pos h⟩

example : TooLong (some 4300) [.float (flt 1), .int (-(10 ^ 4300))] :=
  ⟨4300, -(10 ^ 4300), rfl, List.mem_cons_of_mem _ (List.mem_singleton.2 rfl),
    by rw [abs_neg]; exact le_abs_self _⟩

/-- The same for `rotate`: three angles or more, of which only the first three are converted. -/
theorem C136_rotate [Libm F64] (m : Mesh F64) (y p r : Num) (rest : List Num)
    (short : ¬ TooLong limit (y :: p :: r :: rest)) :
    (¬ TooLarge y ∧ ¬ TooLarge p ∧ ¬ TooLarge r → ∃ dy dp dr, StandsFor y dy ∧ StandsFor p dp ∧
      StandsFor r dr ∧ rotateNum limit m (y :: p :: r :: rest) = rotate m [dy, dp, dr]) ∧
    (TooLarge y ∨ TooLarge p ∨ TooLarge r →
      rotateNum limit m (y :: p :: r :: rest) = (m, some .overflowError)) := by
  unfold rotateNum
  rw [if_neg (fun h => short ((strFails_iff limit _).1 h))]
  have at0 : ∀ n ns' e, radiansAt (n :: ns') 0 = .error e ↔ TooLarge n ∧ e = .overflowError := by
    intro n ns' e
    unfold radiansAt
    simp only [List.getElem?_cons_zero]
    rw [← toDouble_error]
    rcases n.toDouble with e' | d <;> simp
  have hs1 : radiansAt (y :: p :: r :: rest) 1 = radiansAt (p :: r :: rest) 0 := rfl
  have hs2 : radiansAt (y :: p :: r :: rest) 2 = radiansAt (r :: rest) 0 := rfl
  rw [hs1, hs2]
  constructor
  · rintro ⟨hy, hp, hr⟩
    obtain ⟨dy, ey, sy⟩ := notTooLarge hy
    obtain ⟨dp, ep, sp⟩ := notTooLarge hp
    obtain ⟨dr, er, sr⟩ := notTooLarge hr
    refine ⟨dy, dp, dr, sy, sp, sr, ?_⟩
    simp only [radiansAt, List.getElem?_cons_zero, ey, ep, er]
    rfl
  · intro h
    rcases hy : radiansAt (y :: p :: r :: rest) 0 with e | dy
    · rw [((at0 _ _ _).1 hy).2]
    rcases hp : radiansAt (p :: r :: rest) 0 with e | dp
    · simp only [((at0 _ _ _).1 hp).2]
    rcases hr : radiansAt (r :: rest) 0 with e | dr
    · simp only [((at0 _ _ _).1 hr).2]
    have no : ∀ n ns' d, radiansAt (n :: ns') 0 = .ok d → ¬ TooLarge n := fun n ns' d hd hl => by
      rw [(at0 n ns' _).2 ⟨hl, rfl⟩] at hd; cases hd
    rcases h with h | h | h
    · exact absurd h (no _ _ _ hy)
    · exact absurd h (no _ _ _ hp)
    · exact absurd h (no _ _ _ hr)

/-- The turn by 30, 45 and 60 degrees, given as integers. -/
example : @rotateNum goodLibm (some 4300) turnable2 [.int 30, .int 45, .int 60] =
    @rotate F64 _ goodLibm turnable2 [flt 30, flt 45, flt 60] := by
  have h : ∀ i : Nat, i < 100 → (Num.int i).toDouble = .ok (flt i) := by decide +kernel
  have hs : strFails (some 4300) [.int 30, .int 45, .int 60] = false := by decide +kernel
  unfold rotateNum
  rw [hs]
  simp only [radiansAt, List.getElem?_cons_zero, List.getElem?_cons_succ]
  rw [show (Num.int 30).toDouble = _ from h 30 (by norm_num),
    show (Num.int 45).toDouble = _ from h 45 (by norm_num),
    show (Num.int 60).toDouble = _ from h 60 (by norm_num)]
  rfl

/-- Fewer than three angles: `OverflowError` if one is too large, else `IndexError`. -/
theorem C136_rotate_short [Libm F64] (m : Mesh F64) (few : ns.length < 3) (short : ¬ TooLong limit ns) :
    ((∃ n ∈ ns, TooLarge n) → rotateNum limit m ns = (m, some .overflowError)) ∧
    ((∀ n ∈ ns, ¬ TooLarge n) → rotateNum limit m ns = (m, some .indexError)) := by
  unfold rotateNum
  rw [if_neg (fun h => short ((strFails_iff limit _).1 h))]
  constructor
  · rintro ⟨n, hn, hl⟩
    have hd := toDouble_error.2 ⟨hl, rfl⟩
    rcases ns with _ | ⟨x, _ | ⟨y, _ | ⟨z, w⟩⟩⟩
    · cases hn
    · have : n = x := by simpa using hn
      subst this
      simp [radiansAt, hd]
    · rcases hx : x.toDouble with e | d
      · have := (toDouble_error.1 hx).2
        subst this
        simp [radiansAt, hx]
      · have hy : n = y := by
          rcases List.mem_cons.1 hn with h | h
          · subst h; rw [hd] at hx; cases hx
          · simpa using h
        subst hy
        simp [radiansAt, hx, hd]
    · simp only [List.length_cons] at few; omega
  · intro h
    rcases ns with _ | ⟨x, _ | ⟨y, _ | ⟨z, w⟩⟩⟩
    · rfl
    · obtain ⟨d, hd, -⟩ := notTooLarge (h x (by simp))
      simp [radiansAt, hd]
    · obtain ⟨d, hd, -⟩ := notTooLarge (h x (by simp))
      obtain ⟨d', hd', -⟩ := notTooLarge (h y (by simp))
      simp [radiansAt, hd, hd']
    · simp only [List.length_cons] at few; omega

/-- Whatever the mesh and the numbers, a call that raises leaves the mesh as it was, and a call that does
not raise changes only the vertex array. -/
theorem C136_atomic [Libm F64] (limit : Option Nat) (m : Mesh F64) (ns : List Num) :
    ∀ out, out = translateNum limit m ns ∨ out = rotateNum limit m ns →
      (out.2 ≠ none → out.1 = m) ∧ { out.1 with vertices := m.vertices } = m := by
  have key : ∀ r : Except Err (List F64), ((setVertices m r).2 ≠ none → (setVertices m r).1 = m) ∧
      { (setVertices m r).1 with vertices := m.vertices } = m := by
    intro r
    rcases r with e | l
    · exact ⟨fun _ => rfl, rfl⟩
    · exact ⟨fun h => absurd rfl h, rfl⟩
  rintro out (rfl | rfl)
  · unfold translateNum
    split
    · exact ⟨fun _ => rfl, rfl⟩
    · exact key _
  · unfold rotateNum
    split
    · exact ⟨fun _ => rfl, rfl⟩
    · rcases radiansAt ns 0 with e | y
      · exact ⟨fun _ => rfl, rfl⟩
      · rcases radiansAt ns 1 with e | p
        · exact ⟨fun _ => rfl, rfl⟩
        · rcases radiansAt ns 2 with e | r
          · exact ⟨fun _ => rfl, rfl⟩
          · exact key _

end Bf2
