import Verif.OldNumsLemmas
import Verif.OldNumsSpec
import Verif.Props.Nums
import Verif.Props.OldEdit
import Verif.Props.OldRotate
import Verif.Props.ColEdit
import Verif.ColSample

/-!
# Integer offsets and angles in the deprecated modules: C169
-/

namespace Bf2

variable {vs o : Nat} {m : OldMesh F64} {ns : List Num}

/-- **C169.** With no integer too large, `translate` does what it does with the doubles that stand for the numbers. -/
theorem C169_translate (m : OldMesh F64) (small : ∀ n ∈ ns, ¬ TooLarge n) :
    ∃ ds, List.Forall₂ StandsFor ns ds ∧ oldTranslateNum m ns = oldTranslate m ds := by
  obtain ⟨ds, h1, h2⟩ := notTooLarge_all small
  refine ⟨ds, h2, ?_⟩
  unfold oldTranslateNum oldTranslate
  rw [oldTranslateVertexNum_ok h1]

/-- **C169.** On a packed mesh with positions of three numbers only the first three numbers of the offset matter, however
large the others are. -/
theorem C169_first_three (packed : Packed vs m) (exist : VertsExist m) (pos : Float3At m.vertformat m.vattrs 0 o)
    (few : m.ids.length * vs ≤ 2 ^ 53) {a b c : Num} (small : ¬ TooLarge a ∧ ¬ TooLarge b ∧ ¬ TooLarge c)
    (rest : List Num) :
    ∃ d : Vec3 F64, StandsFor a d.x ∧ StandsFor b d.y ∧ StandsFor c d.z ∧
      oldTranslateNum m (a :: b :: c :: rest) = oldTranslate m d.toList := by
  obtain ⟨x, hx, sx⟩ := notTooLarge small.1
  obtain ⟨y, hy, sy⟩ := notTooLarge small.2.1
  obtain ⟨z, hz, sz⟩ := notTooLarge small.2.2
  refine ⟨⟨x, y, z⟩, sx, sy, sz, ?_⟩
  have h1 := (oldEdit_eq packed exist few (translate_step packed.table pos ⟨x, y, z⟩ [])).1
  have h2 := (oldEdit_eq packed exist few (edit := oldTranslateVertexNum (a :: b :: c :: rest))
    (E := movedVert o ⟨x, y, z⟩) (fun v w h => by
      obtain ⟨v', e1, e2⟩ := translate_step packed.table pos ⟨x, y, z⟩ [] v w h
      refine ⟨v', ?_, e2⟩
      obtain ⟨-, -, p, q, r, -, -, -, -, e4, -⟩ := h.at packed.table.format packed.table.packs packed.table.distinct pos
      have hf : List.Forall₂ (fun (n : Num) d => n.toDouble = .ok d) [a, b, c] (Vec3.toList ⟨x, y, z⟩ ++ []) :=
        .cons (a := a) (b := x) hx (.cons (a := b) (b := y) hy (.cons (a := c) (b := z) hz .nil))
      rw [← e1, ← oldTranslateVertexNum_ok hf]
      unfold oldTranslateVertexNum
      rw [e4]
      simp only
      rw [sumNums_three])).1
  rw [List.append_nil] at h1
  exact h2.trans h1.symm

theorem notNegZero {j : Int} {d : F64} (small : |j| ≤ 2 ^ 53) (h : StandsFor (.int j) d) : d ≠ F64.zero.negate := by
  rintro rfl
  have h1 := C136_exact small h
  have h2 : F64.zero.negate.value = 0 := by decide +kernel
  rw [h2] at h1
  exact absurd (h.2.2 (by exact_mod_cast h1.symm)) (by decide)

/-- **C169.** On a packed mesh whose materials tile the vertex array and have bounds, a finite coordinate moved by an
integer up to `2^53` becomes the exact sum correctly rounded to a double. -/
theorem C169_rounds (packed : Packed vs m) (tiled : OldTiled m) (pos : Float3At m.vertformat m.vattrs 0 o)
    (bounds : HasBounds m) (few : m.vertices.length ≤ 2 ^ 53) {a b c : Num}
    (small : ¬ TooLarge a ∧ ¬ TooLarge b ∧ ¬ TooLarge c) (rest : List Num) :
    ∃ m', oldTranslateNum m (a :: b :: c :: rest) = (m', none) ∧ ∀ (i k : Nat) (j : Int) (x : F64),
      (i : Int) < m.vertnum → [a, b, c][k]? = some (.int j) → |j| ≤ 2 ^ 53 →
      (vert vs m.vertices i)[o + k]? = some x → x.isFin = true →
      ∃ y, (vert vs m'.vertices i)[o + k]? = some y ∧ Rounded (x.value + j) y := by
  obtain ⟨n, hn, hlen⟩ := packed.num
  have hid : m.ids.length = n := by rw [tiled.ids hn, List.length_range]
  obtain ⟨d, hx, hy, hz, he⟩ := C169_first_three packed tiled.exist pos (by rw [hid, ← hlen]; exact few) small rest
  obtain ⟨l, gs, h1, -, h2, -⟩ := C87_translate_tiled packed tiled pos bounds few d []
  refine ⟨_, he.trans h1, fun i k j x hi hk hj hv fx => ?_⟩
  rw [show ({ m with vertices := l, vertsList := false, geoms := gs } : OldMesh F64).vertices = l from rfl, h2 i hi]
  have key : ∀ t : F64, StandsFor (.int j) t → Rounded (x.value + j) (FArith.add (FArith.add FArith.zero x) t) := by
    intro t ht
    have h3 : FArith.add (FArith.add FArith.zero x) t = F64.add x t := add_zero_first x t (.inr (notNegZero hj ht))
    rw [h3, ← C136_exact hj ht]
    exact add_rounded fx ht.1
  unfold movedVert
  rw [List.getElem?_mapIdx, hv]
  rcases k with _ | _ | _ | k
  · cases hk
    exact ⟨_, rfl, by simpa using key _ hx⟩
  · cases hk
    exact ⟨_, rfl, by simpa using key _ hy⟩
  · cases hk
    exact ⟨_, rfl, by simpa using key _ hz⟩
  · simp at hk

/-- **C169.** An integer among them that is too large for a double raises `OverflowError` at the first vertex, and the
mesh stays. -/
theorem C169_overflow (packed : Packed vs m) (exist : VertsExist m) (pos : Float3At m.vertformat m.vattrs 0 o)
    {a b c : Num} (large : TooLarge a ∨ TooLarge b ∨ TooLarge c) (rest : List Num)
    (vertex : ∃ a ∈ m.mats, 0 < a.vnum) :
    oldTranslateNum m (a :: b :: c :: rest) = (m, some .overflowError) := by
  refine oldEdit_raises packed exist (fun v w h => ?_) vertex
  obtain ⟨-, -, p, q, r, -, -, -, -, e4, -⟩ := h.at packed.table.format packed.table.packs packed.table.distinct pos
  unfold oldTranslateVertexNum
  rw [e4]
  simp only
  rw [sumNums_large _ _ _ _ large]

/-- **C169.** `rotate` converts the first three angles before anything else. -/
theorem C169_rotate [Libm F64] (m : OldMesh F64) (y p r : Num) (rest : List Num) :
    (¬ TooLarge y ∧ ¬ TooLarge p ∧ ¬ TooLarge r → ∃ dy dp dr, StandsFor y dy ∧ StandsFor p dp ∧ StandsFor r dr ∧
      oldRotateNum m (y :: p :: r :: rest) = oldRotate m [dy, dp, dr]) ∧
    (TooLarge y ∨ TooLarge p ∨ TooLarge r → oldRotateNum m (y :: p :: r :: rest) = (m, some .overflowError)) := by
  have no : ∀ {n : Num} {d : F64}, n.toDouble = .ok d → ¬ TooLarge n := fun hd hl => by
    rw [toDouble_error.2 ⟨hl, rfl⟩] at hd; cases hd
  unfold oldRotateNum
  simp only [radiansAt, List.getElem?_cons_zero, List.getElem?_cons_succ]
  constructor
  · rintro ⟨hy, hp, hr⟩
    obtain ⟨dy, ey, sy⟩ := notTooLarge hy
    obtain ⟨dp, ep, sp⟩ := notTooLarge hp
    obtain ⟨dr, er, sr⟩ := notTooLarge hr
    refine ⟨dy, dp, dr, sy, sp, sr, ?_⟩
    simp only [ey, ep, er]
    rfl
  · intro h
    rcases hy : y.toDouble with e | dy
    · simp only [(toDouble_error.1 hy).2]
    rcases hp : p.toDouble with e | dp
    · simp only [(toDouble_error.1 hp).2]
    rcases hr : r.toDouble with e | dr
    · simp only [(toDouble_error.1 hr).2]
    rcases h with h | h | h
    · exact absurd h (no hy)
    · exact absurd h (no hp)
    · exact absurd h (no hr)

/-- **C169.** Fewer than three angles: `OverflowError` if one is too large, else `IndexError`. -/
theorem C169_rotate_short [Libm F64] (m : OldMesh F64) (few : ns.length < 3) :
    ((∃ n ∈ ns, TooLarge n) → oldRotateNum m ns = (m, some .overflowError)) ∧
    ((∀ n ∈ ns, ¬ TooLarge n) → oldRotateNum m ns = (m, some .indexError)) := by
  unfold oldRotateNum
  constructor
  · rintro ⟨n, hn, hl⟩
    have hd := toDouble_error.2 ⟨hl, rfl⟩
    rcases ns with _ | ⟨x, _ | ⟨y, _ | ⟨z, w⟩⟩⟩
    · cases hn
    · have : n = x := by simpa using hn
      subst this
      simp [radiansAt, hd]
    · rcases hx : x.toDouble with e | d
      · have := (toDouble_error.1 hx).2
        subst this
        simp [radiansAt, hx]
      · rcases List.mem_cons.1 hn with rfl | hn
        · rw [hd] at hx; cases hx
        · have : n = y := by simpa using hn
          subst this
          simp [radiansAt, hx, hd]
    · simp only [List.length_cons] at few; omega
  · intro h
    rcases ns with _ | ⟨x, _ | ⟨y, _ | ⟨z, w⟩⟩⟩
    · rfl
    · obtain ⟨d, hd, -⟩ := notTooLarge (h x (by simp))
      simp [radiansAt, hd]
    · obtain ⟨d, hd, -⟩ := notTooLarge (h x (by simp))
      obtain ⟨d', hd', -⟩ := notTooLarge (h y (by simp))
      simp [radiansAt, hd, hd']
    · simp only [List.length_cons] at few; omega

section
variable {φ : Type}

/-- **C169.** Collision meshes: with no integer too large, `translate` does what it does with the doubles that stand for
the numbers; else it raises `OverflowError` and leaves the mesh as it is, or, without a vertex, does nothing. -/
theorem C169_collision (off : Vec3 Num) (m : ColMesh F64 φ) :
    (¬ TooLarge off.x ∧ ¬ TooLarge off.y ∧ ¬ TooLarge off.z →
      ∃ d : Vec3 F64, StandsFor off.x d.x ∧ StandsFor off.y d.y ∧ StandsFor off.z d.z ∧
        colTranslateNum off m = (colTranslate d m, none)) ∧
    (TooLarge off.x ∨ TooLarge off.y ∨ TooLarge off.z →
      (HasVertex m → colTranslateNum off m = (m, some .overflowError)) ∧
      (¬ HasVertex m → colTranslateNum off m = (m, none))) := by
  constructor
  · rintro ⟨hx, hy, hz⟩
    obtain ⟨x, ex, sx⟩ := notTooLarge hx
    obtain ⟨y, ey, sy⟩ := notTooLarge hy
    obtain ⟨z, ez, sz⟩ := notTooLarge hz
    refine ⟨⟨x, y, z⟩, sx, sy, sz, ?_⟩
    have h1 : ∀ l : List (Vec3 F64), inPlace (moveVertexNum off) l = (l.map fun v => v.plus ⟨x, y, z⟩, none) :=
      fun l => inPlace_ok fun v _ => by
        unfold moveVertexNum
        rw [plusNums_ok (d := ⟨x, y, z⟩) ex ey ez]
    unfold colTranslateNum colTranslate
    rw [inPlace_ok fun g _ => by
      unfold moveGeomNum
      rw [inPlace_ok fun s _ => by
        unfold moveSubNum
        rw [inPlace_ok fun l _ => by
          unfold moveLodNum
          rw [h1]]]]
  · intro large
    have h1 : ∀ l : List (Vec3 F64), _ := fun l => inPlace_stay (f := moveVertexNum off) (P := fun _ => True)
      (e := .overflowError) (l := l) fun v _ => by
        unfold moveVertexNum
        rw [plusNums_large large]
        simp
    have h2 : ∀ ls : List (ColLod F64 φ), _ := fun ls => inPlace_stay (f := moveLodNum off)
      (P := fun l => ∃ v, v ∈ l.vertices) (e := .overflowError) (l := ls) fun l _ => by
        unfold moveLodNum
        refine ⟨fun ⟨v, hv⟩ => ?_, fun h => ?_⟩
        · rw [(h1 _).1 ⟨v, hv, trivial⟩]
        · rw [(h1 _).2 fun v hv => absurd ⟨v, hv⟩ h]
    have h3 : ∀ ss : List (ColSub F64 φ), _ := fun ss => inPlace_stay (f := moveSubNum off)
      (P := fun s => ∃ l ∈ s.lods, ∃ v, v ∈ l.vertices) (e := .overflowError) (l := ss) fun s _ => by
        unfold moveSubNum
        refine ⟨fun h => ?_, fun h => ?_⟩
        · rw [(h2 _).1 h]
        · rw [(h2 _).2 fun l hl hv => h ⟨l, hl, hv⟩]
    have h4 : ∀ gs : List (ColGeom F64 φ), _ := fun gs => inPlace_stay (f := moveGeomNum off)
      (P := fun g => ∃ s ∈ g.subgeoms, ∃ l ∈ s.lods, ∃ v, v ∈ l.vertices) (e := .overflowError) (l := gs) fun g _ => by
        unfold moveGeomNum
        refine ⟨fun h => ?_, fun h => ?_⟩
        · rw [(h3 _).1 h]
        · rw [(h3 _).2 fun l hl hv => h ⟨l, hl, hv⟩]
    unfold colTranslateNum
    refine ⟨fun h => ?_, fun h => ?_⟩
    · rw [(h4 _).1 h]
    · rw [(h4 _).2 fun l hl hv => h ⟨l, hl, hv⟩]

end

/-! ## Witnesses -/

theorem notLarge_small {i : Int} (h : |i| ≤ 2 ^ 53) : ¬ TooLarge (.int i) := by
  rintro ⟨j, hj, h'⟩
  cases hj
  exact absurd (le_trans h' h) (by decide +kernel)

/-- The integers 10, 20 and 30, and a fourth number that is too large for a double and is not looked at. -/
example : Packed 4 (oldMovable (flt 0) upto12) ∧ OldTiled (oldMovable (flt 0) upto12) ∧
    HasBounds (oldMovable (flt 0) upto12) ∧ Float3At 4 posAttrs 0 0 ∧
    (¬ TooLarge (.int 10) ∧ ¬ TooLarge (.int 20) ∧ ¬ TooLarge (.int 30)) ∧
    oldTranslateNum (oldMovable (flt 0) upto12) [.int 10, .int 20, .int 30, .int (2 ^ 1024)] =
      oldTranslate (oldMovable (flt 0) upto12) [flt 10, flt 20, flt 30] ∧
    (oldTranslateNum (oldMovable (flt 0) upto12) [.int 10, .int (2 ^ 1024), .int 30]).2 = some .overflowError ∧
    ∃ a ∈ (oldMovable (flt 0) upto12).mats, 0 < a.vnum :=
  ⟨oldMovable_packed _ _ rfl, oldMovable_tiled _ _, oldMovable_bounds _ _, posTable_float3,
    ⟨notLarge_small (by decide), notLarge_small (by decide), notLarge_small (by decide)⟩, by decide +kernel,
    by decide +kernel, by decide +kernel⟩

/-- A mesh without vertices does not mind the offset. -/
example : colTranslateNum (φ := ColFace) ⟨.int (2 ^ 1024), .int 0, .int 0⟩ ⟨0, 10, 1, [⟨1, [⟨0, []⟩]⟩]⟩ =
    (⟨0, 10, 1, [⟨1, [⟨0, []⟩]⟩]⟩, none) ∧ TooLarge (.int (2 ^ 1024)) :=
  ⟨rfl, _, rfl, by decide +kernel⟩

/-- The sample, moved by integers and by floats, and by an integer that is too large. -/
example : (loadCol (F := F64) win evilBoxCol).toOption.map (fun m =>
      (decide (colTranslateNum ⟨.int 1, .int (-2), .int 0⟩ m = (colTranslate ⟨flt 1, (flt 2).negate, flt 0⟩ m, none)),
       decide (colTranslateNum ⟨.int 1, .int 0, .int (2 ^ 1024)⟩ m = (m, some .overflowError)))) = some (true, true) := by
  decide +kernel

/-- Angles: too few, one too large among too few, and one too large among three. -/
example : let m := oldMovable (flt 0) upto12
    (@oldRotateNum goodLibm m [.int 30, .int 45]) = (m, some .indexError) ∧
    (@oldRotateNum goodLibm m [.int 30, .int (2 ^ 1024)]) = (m, some .overflowError) ∧
    (@oldRotateNum goodLibm m [.int 30, .int 45, .int (2 ^ 1024)]) = (m, some .overflowError) := by
  letI := goodLibm
  have s : ∀ i : Int, |i| ≤ 2 ^ 53 → ¬ TooLarge (.int i) := fun i => notLarge_small
  have l : TooLarge (.int (2 ^ 1024)) := ⟨_, rfl, by decide +kernel⟩
  refine ⟨(C169_rotate_short _ (by decide)).2 ?_, (C169_rotate_short _ (by decide)).1 ⟨_, by simp, l⟩,
    (C169_rotate _ _ _ _ []).2 (.inr (.inr l))⟩
  intro n hn
  simp only [List.mem_cons, List.not_mem_nil, or_false] at hn
  rcases hn with rfl | rfl <;> exact s _ (by decide)

end Bf2
