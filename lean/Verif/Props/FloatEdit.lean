import Verif.FloatArith
import Verif.Props.Translate

/-!
# What `translate` does to floating point coordinates (C71 to C73)
-/

namespace Bf2

variable {vs : Nat} {m : Mesh F64} {a : VAttr} {o : Nat} {d : List F64}

/-! ## C71: coordinates are correctly rounded sums -/

/-- On a mesh whose materials tile the vertex array, a finite coordinate moved by a finite distance
becomes the exact sum correctly rounded to a double.  A NaN gives a NaN, an infinity stays, and
opposite infinities give a NaN. -/
theorem C71_translate_rounds (tiled : TiledVerts vs m) (first : FirstPosition m.vattrs a)
    (start : StartsAt m.vertformat a o) (fits : o + d.length ≤ vs) :
    (translate m d).2 = none ∧ ∀ (v k : Nat) (x t : F64), o + k < vs →
      m.vertices[v * vs + (o + k)]? = some x → d[k]? = some t →
      ∃ y, (translate m d).1.vertices[v * vs + (o + k)]? = some y ∧
        (x.isFin = true → t.isFin = true → Rounded (x.value + t.value) y) ∧
        (x.isNaN = true ∨ t.isNaN = true → y.isNaN = true) ∧
        (x.isInf = true → t.isFin = true → y = x) ∧
        (x.isFin = true → t.isInf = true → y = t) ∧
        (x.isInf = true → t.isInf = true → x.neg = t.neg → y = x) ∧
        (x.isInf = true → t.isInf = true → x.neg ≠ t.neg → y.isNaN = true) := by
  obtain ⟨l, hl, -, hv⟩ := C22_translate_moves_positions_only tiled first start fits
  rw [hl]
  refine ⟨rfl, fun v k x t hk hx ht => ?_⟩
  refine ⟨F64.add x t, (hv v (o + k) x hk hx).1 t (by omega) (by simpa using ht), add_rounded, ?_⟩
  exact add_special x t

/-- The sum is exact when it is a double. -/
theorem C71_translate_exact (tiled : TiledVerts vs m) (first : FirstPosition m.vattrs a)
    (start : StartsAt m.vertformat a o) (fits : o + d.length ≤ vs) (v k : Nat) (x t z : F64)
    (hk : o + k < vs) (hx : m.vertices[v * vs + (o + k)]? = some x) (ht : d[k]? = some t)
    (fx : x.isFin = true) (ft : t.isFin = true) (fz : z.isFin = true)
    (sum : z.value = x.value + t.value) :
    ∃ y, (translate m d).1.vertices[v * vs + (o + k)]? = some y ∧ y.isFin = true ∧
      y.value = x.value + t.value := by
  obtain ⟨y, hy, hr, -⟩ := (C71_translate_rounds tiled first start fits).2 v k x t hk hx ht
  exact ⟨y, hy, (hr fx ft).exact fz sum⟩

/-- A mesh at `2^53`, moved by 1 (rounded down to even), 2 (exact) and 3 (rounded up to even). -/
def far : Mesh F64 := movable (flt 0) (List.replicate 12 (flt (2 ^ 53)))

example : ∃ d : List F64, TiledVerts 4 far ∧ FirstPosition far.vattrs ⟨0, 0, 2, 0⟩ ∧
    StartsAt far.vertformat ⟨0, 0, 2, 0⟩ 0 ∧ 0 + d.length ≤ 4 ∧
    (translate far d).1.vertices.take 3 = [flt (2 ^ 53), flt (2 ^ 53 + 2), flt (2 ^ 53 + 4)] ∧
    (flt (2 ^ 53)).isFin = true ∧ d.all (·.isFin) = true :=
  ⟨[flt 1, flt 2, flt 3], movable_tiled _ _ rfl, posAttrs_first, posAttrs_start, by decide,
    by decide +kernel, by decide +kernel, by decide +kernel⟩

/-! ## C72: translating by zero -/

/-- Translating by `-0.0` in each component changes nothing, whatever the mesh holds except
signalling NaNs, which loading never leaves. -/
theorem C72_minus_zero (tiled : TiledVerts vs m) (first : FirstPosition m.vattrs a)
    (start : StartsAt m.vertformat a o) (fits : o + d.length ≤ vs)
    (zeros : ∀ t ∈ d, t = F64.zero.negate) (quiet : ∀ x ∈ m.vertices, x.isNaN = true → x.quiet = x) :
    translate m d = (m, none) := by
  rw [translate_tiled tiled first start fits]
  have : movedAll vs o d m.vertices = m.vertices := by
    unfold movedAll
    apply List.ext_getElem?
    intro i
    rw [List.getElem?_mapIdx]
    cases hx : m.vertices[i]? with
    | none => rfl
    | some x =>
      simp only [Option.map_some, Option.some.injEq, moved]
      split
      · cases ht : d[i % vs - o]? with
        | none => rfl
        | some t =>
          rw [zeros t (List.mem_of_getElem? ht)]
          change F64.add x _ = x
          rw [add_zero' (quiet x (List.mem_of_getElem? hx)) (by decide)]
          split
          · rename_i h
            cases x with
            | mk n mg l =>
              simp only at h
              subst h
              simp [F64.mk', F64.zero, F64.negate]
          · rfl
      · rfl
  rw [this]

/-- Translating by `0.0` turns each moved `-0.0` into `0.0`; every other coordinate (signalling NaNs
apart) stays as it is. -/
theorem C72_plus_zero (tiled : TiledVerts vs m) (first : FirstPosition m.vattrs a)
    (start : StartsAt m.vertformat a o) (fits : o + d.length ≤ vs)
    (zeros : ∀ t ∈ d, t = F64.zero) (quiet : ∀ x ∈ m.vertices, x.isNaN = true → x.quiet = x) :
    ∃ l : List F64, translate m d = ({ m with vertices := l }, none) ∧
      l.length = m.vertices.length ∧
      ∀ (v c : Nat) (x : F64), c < vs → m.vertices[v * vs + c]? = some x →
        l[v * vs + c]? = some (if o ≤ c ∧ c < o + d.length ∧ x = F64.zero.negate then F64.zero
          else x) := by
  obtain ⟨l, hl, hlen, hv⟩ := C22_translate_moves_positions_only tiled first start fits
  refine ⟨l, hl, hlen, fun v c x hc hx => ?_⟩
  obtain ⟨h1, h2⟩ := hv v c x hc hx
  by_cases hin : o ≤ c ∧ c < o + d.length
  · have hg : d[c - o]? = some d[c - o] := List.getElem?_eq_getElem (by omega)
    rw [h1 _ hin.1 hg, zeros _ (List.getElem_mem _)]
    change some (F64.add x _) = _
    rw [add_zero' (quiet x (List.mem_of_getElem? hx)) (by decide)]
    congr 1
    cases x with
    | mk n mg l =>
      simp only [F64.zero, F64.negate, F64.mk', hin.1, hin.2, true_and, F64.mk.injEq]
      by_cases h : mg = 0
      · subst h; cases n <;> simp
      · rw [if_neg h, if_neg (by simp [h])]
  · rw [h2 (by omega), if_neg (by tauto)]

example : ∃ (m : Mesh F64) (d e : List F64), TiledVerts 4 m ∧ FirstPosition m.vattrs ⟨0, 0, 2, 0⟩ ∧
    StartsAt m.vertformat ⟨0, 0, 2, 0⟩ 0 ∧ 0 + d.length ≤ 4 ∧ 0 + e.length ≤ 4 ∧
    (∀ t ∈ d, t = F64.zero) ∧ (∀ t ∈ e, t = F64.zero.negate) ∧
    (∀ x ∈ m.vertices, x.isNaN = true → x.quiet = x) ∧ (translate m d).1 ≠ m ∧ (translate m e).1 = m :=
  ⟨movable (flt 0) (List.replicate 12 F64.zero.negate), List.replicate 3 F64.zero,
    List.replicate 3 F64.zero.negate, movable_tiled _ _ rfl, posAttrs_first, posAttrs_start,
    by decide, by decide, by decide +kernel, by decide +kernel, by decide +kernel,
    by decide +kernel, by decide +kernel⟩

/-! ## C73: moving there and back -/

/-- Translating by `d` and then by `-d` brings a coordinate back to its value if the sum is a double.
(`Rounded.exact` is about values: the sign of a zero may change, see C72.) -/
theorem C73_back_if_exact (tiled : TiledVerts vs m) (first : FirstPosition m.vattrs a)
    (start : StartsAt m.vertformat a o) (fits : o + d.length ≤ vs) (v k : Nat) (x t z : F64)
    (hk : o + k < vs) (hx : m.vertices[v * vs + (o + k)]? = some x) (ht : d[k]? = some t)
    (fx : x.isFin = true) (ft : t.isFin = true) (fz : z.isFin = true)
    (sum : z.value = x.value + t.value) :
    ∃ y, (translate (translate m d).1 (d.map F64.negate)).1.vertices[v * vs + (o + k)]? = some y ∧
      y.isFin = true ∧ y.value = x.value := by
  obtain ⟨y, hy, fy, vy⟩ :=
    C71_translate_exact tiled first start fits v k x t z hk hx ht fx ft fz sum
  rw [translate_tiled tiled first start fits] at hy ⊢
  have t' : TiledVerts vs { m with vertices := movedAll vs o d m.vertices } :=
    ⟨tiled.pos, tiled.size, tiled.nonneg, tiled.start, by
      simp only [movedAll_length]; exact tiled.total⟩
  obtain ⟨w, hw, fw, vw⟩ := C71_translate_exact (d := d.map F64.negate) t' first start
    (by simpa using fits) v k y t.negate x hk hy (by simp [ht]) fy ft fx
    (by rw [negate_value, vy]; ring)
  exact ⟨w, hw, fw, by rw [vw, negate_value, vy]; ring⟩

/-- In general it does not: 1 moved by `2^60` and back is 0. -/
theorem C73_back_differs : ∃ (m : Mesh F64) (d : List F64), TiledVerts 4 m ∧
    FirstPosition m.vattrs ⟨0, 0, 2, 0⟩ ∧ StartsAt m.vertformat ⟨0, 0, 2, 0⟩ 0 ∧
    0 + d.length ≤ 4 ∧ (∀ x ∈ m.vertices, x = flt 1) ∧ (∀ t ∈ d, t.isFin = true) ∧
    (translate (translate m d).1 (d.map F64.negate)).1.vertices.take 3 = [flt 0, flt 0, flt 0] :=
  ⟨movable (flt 0) (List.replicate 12 (flt 1)), List.replicate 3 (flt (2 ^ 60)),
    movable_tiled _ _ rfl, posAttrs_first, posAttrs_start, by decide,
    by decide +kernel, by decide +kernel, by decide +kernel⟩

end Bf2
