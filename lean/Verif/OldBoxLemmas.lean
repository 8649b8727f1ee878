import Verif.OldBox
import Verif.OldOrderLemmas
import Verif.TranslateLemmas

/-!
# Lemmas on `Box()` and `ColBox()`
-/

namespace Bf2

theorem boxTable : PackedTable 12 4 48 boxAttrs where
  pos := by decide
  small := by decide
  format := by decide
  stride := by decide
  known := by decide
  packs := .used (n := 3) (by decide) rfl (by decide) (.used (n := 3) (by decide) rfl (by decide)
    (.used (n := 1) (by decide) rfl (by decide) (.used (n := 2) (by decide) rfl (by decide)
      (.used (n := 3) (by decide) rfl (by decide) .done))))
  distinct := by decide

/-- `Box()` with flags set. -/
def boxOf (k : Kind) : OldMesh F64 := { mockBox with kind := k }

theorem boxOf_wf {k : Kind} (hs : k.isSkinned = false) (hb : k.isBundled = false) :
    OldWF (boxOf k) where
  geoms := rfl
  lods := by
    intro g hg
    obtain rfl := List.mem_singleton.1 hg
    rfl
  lod := by
    intro g hg l hl
    obtain rfl := List.mem_singleton.1 hg
    obtain rfl := List.mem_singleton.1 hl
    refine ⟨rfl, ?_, rfl, fun r hr => (List.not_mem_nil hr).elim, ?_, ?_, rfl, ?_⟩
    · change false = k.isSkinned
      rw [hs]
    · change true = !k.isSkinned
      rw [hs]; rfl
    · change true = (!k.isBundled && true)
      rw [hb]; rfl
    · intro a ha
      obtain rfl := List.mem_singleton.1 ha
      refine ⟨?_, rfl, ?_, ?_⟩
      · change true = !k.isSkinned
        rw [hs]; rfl
      · change true = (!k.isSkinned && true)
        rw [hs]; rfl
      · change true = (!k.isSkinned && true)
        rw [hs]; rfl
  vattrs := rfl
  vertformat := (by decide : (4 : Int) ≠ 0)
  vertices := (by decide +kernel :
    (mockBox.vertices.length : Int) = intDivMul mockBox.vertstride mockBox.vertformat mockBox.vertnum)
  not_one := (by decide +kernel : mockBox.vertices.length ≠ 1)
  index := rfl
  u2 := by
    intro h
    rw [show (boxOf k).kind = k from rfl, hs] at h
    cases h

theorem boxOf_orderly {k : Kind} (hs : k.isSkinned = false) (hb : k.isBundled = false) :
    OldOrderly 12 (boxOf k) where
  wf := boxOf_wf hs hb
  packed := ⟨boxTable, (by decide +kernel : (mockBox.vertices.length : Int) = mockBox.vertnum * 12)⟩
  tiled := ⟨by change ∀ a ∈ [boxMat], _; decide, starts_of rfl, by rfl⟩
  tiledIndex := ⟨by change ∀ a ∈ [boxMat], _; decide, starts_of rfl, by rfl⟩
  bounds := by
    intro a ha
    have : a ∈ [boxMat] := ha
    obtain rfl := List.mem_singleton.1 this
    exact ⟨by simp [boxMat], by simp [boxMat]⟩
  pos := ⟨0, (⟨⟨0, 0, 2, 0⟩, by decide, by decide⟩ : Float3At 4 boxAttrs 0 0)⟩
  normal := ⟨3, (⟨⟨0, 12, 2, 3⟩, by decide, by decide⟩ : Float3At 4 boxAttrs 3 3)⟩
  tangent := ⟨9, (⟨⟨0, 36, 2, 6⟩, by decide, by decide⟩ : Float3At 4 boxAttrs 6 9)⟩
  small := by
    have : (boxOf k).vertices.length = 288 := by change boxVertices.length = 288; decide +kernel
    rw [this]; norm_num

theorem isLong_small {pl : Plat} {v : Int} (h : -2147483648 ≤ v ∧ v ≤ 2147483647) : IsLong pl v := by
  unfold IsLong
  split <;> omega

theorem boxOf_range (pl : Plat) (k : Kind) : OldInRange pl (boxOf k) where
  head_u1 := isLong_small (v := 0) (by decide)
  version := isLong_small (v := 11) (by decide)
  head_u3 := isLong_small (v := 0) (by decide)
  head_u4 := isLong_small (v := 0) (by decide)
  head_u5 := isLong_small (v := 0) (by decide)
  u1 := (by decide : (-128 : Int) ≤ 0 ∧ (0 : Int) ≤ 127)
  geomnum := isLong_small (v := 1) (by decide)
  lodnum := by
    intro g hg
    obtain rfl := List.mem_singleton.1 hg
    exact isLong_small (v := 1) (by decide)
  vertattribnum := isLong_small (v := boxAttrs.length) (by decide)
  vattrs := (by unfold IsSShort; decide : ∀ a ∈ boxAttrs,
    IsSShort a.flag ∧ IsSShort a.offset ∧ IsSShort a.vartype ∧ IsSShort a.usage)
  vertformat := isLong_small (v := 4) (by decide)
  vertstride := isLong_small (v := mockBox.vertstride) (by decide)
  vertnum := isLong_small (v := mockBox.vertnum) (by decide)
  indexnum := isLong_small (v := mockBox.indexnum) (by decide)
  index := (by unfold IsShort; decide : ∀ i ∈ boxIndex, IsShort i)
  u2 := isLong_small (v := 8) (by decide)
  lods := by
    intro g hg l hl
    obtain rfl := List.mem_singleton.1 hg
    obtain rfl := List.mem_singleton.1 hl
    refine ⟨?_, ?_, ?_, ?_, isLong_small (v := 1) (by decide), ?_⟩
    · intro n h; cases h
    · intro r hr; cases hr
    · intro r hr; cases hr
    · intro n h; cases h; exact isLong_small (by decide)
    · intro a ha
      obtain rfl := List.mem_singleton.1 ha
      refine ⟨?_, ?_, ?_, ?_, ?_, ?_, ?_, ?_, ?_, ?_, ?_⟩
      · intro v hv; cases hv; exact isLong_small (by decide)
      · exact isLong_small (by decide)
      · exact isLong_small (by decide)
      · exact isLong_small (by decide)
      · intro s hs
        obtain rfl := List.mem_singleton.1 hs
        exact isLong_small (by decide)
      all_goals exact isLong_small (by decide)

end Bf2
