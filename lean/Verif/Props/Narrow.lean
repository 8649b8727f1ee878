import Verif.TwiceLemmas
import Verif.MapLemmas
import Verif.Props.FloatEdit
import Verif.Props.Format
import Verif.Props.Floats
import Verif.Props.RotError

/-!
# C150: a moved and saved coordinate is the correctly rounded sum

The file holds binary32 numbers and `translate` adds doubles, so a coordinate is rounded twice, once to a double and
once to binary32.  If the offset is itself a number of binary32 this does no harm.
-/

namespace Bf2

/-! ## Which doubles are numbers of binary32 -/

/-- **C150.** Exactly those with at most 24 bits and a last bit of at least `2^-149`, below `2^128`. -/
theorem C150_single_iff (x : F64) : IsSingle x ↔ x.isFin = true ∧ |x.value| < 2 ^ 128 ∧
    ∃ a e : ℤ, |a| ≤ 2 ^ 24 ∧ -149 ≤ e ∧ x.value = a * 2 ^ e := by
  constructor
  · rintro ⟨fx, w, hw, e⟩
    obtain ⟨a, f, h1, h2, h3, h4⟩ := val32_form hw
    rw [← e] at h3 h4
    exact ⟨fx, by exact_mod_cast h4, a, f, h1, h2, h3⟩
  · rintro ⟨fx, hlt, a, e, ha, he, hv⟩
    have hnn := decMag_nonneg 52 (-1074) x.mag
    have habs : |x.value| = decMag 52 (-1074) x.mag := by
      rw [value_eq]
      cases x.neg <;> simp [abs_of_nonneg hnn]
    have hexact : rndMag 23 (-149) (decMag 52 (-1074) x.mag) = decMag 52 (-1074) x.mag := by
      refine rndMag_exact 23 (-149) hnn a.natAbs e ?_ he ?_
      · have : (a.natAbs : ℤ) ≤ 2 ^ 24 := by rw [Int.natCast_natAbs]; exact ha
        exact_mod_cast this
      · rw [← habs, hv, abs_mul, abs_of_pos (two_zpow_pos e), Nat.cast_natAbs]
        push_cast
        rfl
    have hfin : encMag 23 (-149) (decMag 52 (-1074) x.mag) < inf32 := by
      by_contra hc
      rw [not_lt] at hc
      have h1 := (encMag_inf hnn).1 hc
      have h2 := dec_enc 23 (-149) hnn
      rw [hexact] at h2
      have h3 : (2 : ℚ) ^ 128 ≤ decMag 52 (-1074) x.mag := by
        rw [← h2]
        generalize encMag 23 (-149) (decMag 52 (-1074) x.mag) = b at hc
        unfold decMag
        have hb : 255 ≤ b / 2 ^ 23 := by
          simp only [inf32] at hc
          omega
        rw [if_neg (by omega)]
        have h4 : (2 : ℚ) ^ (105 : ℤ) ≤ 2 ^ ((-149 : ℤ) + (b / 2 ^ 23 : ℕ) - 1) :=
          zpow_le_zpow_right₀ (by norm_num) (by omega)
        have h5 : (2 : ℚ) ^ 23 ≤ 2 ^ 23 + ((b % 2 ^ 23 : ℕ) : ℚ) := le_add_of_nonneg_right (by positivity)
        calc (2 : ℚ) ^ 128 = 2 ^ 23 * 2 ^ (105 : ℤ) := by norm_num
          _ ≤ _ := mul_le_mul h5 h4 (two_zpow_pos _).le (by positivity)
      rw [habs] at hlt
      exact absurd hlt (not_lt.2 h3)
    have hmag : packMag x.mag = encMag 23 (-149) (decMag 52 (-1074) x.mag) := by
      simp only [F64.isFin, decide_eq_true_eq] at fx
      unfold packMag
      rw [if_pos fx]
      omega
    refine ⟨fx, packF x, ?_, ?_⟩
    · rw [special32_iff, packF_mag, hmag]
      omega
    · rw [val32_eq, packF_sgn, packF_mag, hmag, dec_enc 23 (-149) hnn, hexact, value_eq]

/-- For instance `2^24`. -/
theorem flt24_single : IsSingle (flt (2 ^ 24)) :=
  (C150_single_iff _).2 ⟨by decide +kernel, by decide +kernel, 1, 24, by decide, by decide, by decide +kernel⟩

theorem flt_single {x : F64} {w : BitVec 32} (h : x = unpackF w) (fin : x.isFin = true) (hw : ¬ Special32 w) :
    IsSingle x := ⟨fin, w, hw, by rw [h]; exact (C51_read_exact w hw).2⟩

/-- **C150.** So are the finite floats of a loaded mesh. -/
theorem C150_loaded {pl : Plat} {k : Kind} {file : Bytes} {m : Mesh F64} (loaded : load pl k file = .ok m) {i : Nat}
    {x : F64} (hx : m.vertices[i]? = some x) (fin : x.isFin = true) : IsSingle x := by
  rw [load_map] at loaded
  rcases hl : load (F := BitVec 32) pl k file with e | r
  · rw [hl] at loaded
    cases loaded
  · rw [hl] at loaded
    cases loaded
    simp only [Mesh.map, List.getElem?_map, Option.map_eq_some_iff] at hx
    obtain ⟨w, -, rfl⟩ := hx
    have hw : ¬ Special32 w := by
      intro hs
      rw [special32_iff] at hs
      have hm := unpackF_mag w
      simp only [F64.isFin, decide_eq_true_eq] at fin
      change (unpackF w).mag < inf64 at fin
      rw [hm] at fin
      unfold unpackMag at fin
      rw [if_neg (by omega)] at fin
      split_ifs at fin <;> simp only [inf64, inf32] at fin hs <;> omega
    exact ⟨fin, w, hw, (C51_read_exact w hw).2⟩

/-! ## Moved and saved -/

section
variable {vs : Nat} {m : Mesh F64} {a : VAttr} {o : Nat} {d : List F64}

/-- **C150.** A coordinate and an offset that are numbers of binary32: what is stored for the moved coordinate is
their exact sum, correctly rounded to binary32. -/
theorem C150_translate (tiled : TiledVerts vs m) (first : FirstPosition m.vattrs a)
    (start : StartsAt m.vertformat a o) (fits : o + d.length ≤ vs) (v k : Nat) (x t : F64) (hk : o + k < vs)
    (hx : m.vertices[v * vs + (o + k)]? = some x) (ht : d[k]? = some t) (sx : IsSingle x) (st : IsSingle t) :
    ∃ y, (translate m d).1.vertices[v * vs + (o + k)]? = some y ∧ Rounded32 (x.value + t.value) (packF y) := by
  obtain ⟨l, hl, -, hv⟩ := C22_translate_moves_positions_only tiled first start fits
  rw [hl]
  exact ⟨F64.add x t, (hv v (o + k) x hk hx).1 t (by omega) (by simpa using ht), single_sum sx st⟩

/-- All coordinates are `2^24`. -/
def largeBox : Mesh F64 := rotatable (flt 0) (List.replicate 16 (flt (2 ^ 24)))

def oddSteps : List F64 := [flt 1, flt 2, flt 3]

theorem oddSteps_single : ∀ t ∈ oddSteps, IsSingle t := by
  intro t ht
  simp only [oddSteps, List.mem_cons, List.not_mem_nil, or_false] at ht
  rcases ht with rfl | rfl | rfl
  · exact flt_single (w := 0x3f800000) (by decide +kernel) (by decide +kernel) (by decide)
  · exact flt_single (w := 0x40000000) (by decide +kernel) (by decide +kernel) (by decide)
  · exact flt_single (w := 0x40400000) (by decide +kernel) (by decide +kernel) (by decide)

/-- The sums `2^24 + 1` and `2^24 + 3` lie in the middle, one is rounded down and one up. -/
example : TiledVerts 8 largeBox ∧ FirstPosition largeBox.vattrs ⟨0, 0, 2, 0⟩ ∧
    StartsAt largeBox.vertformat ⟨0, 0, 2, 0⟩ 0 ∧ 0 + oddSteps.length ≤ 8 ∧
    largeBox.vertices[1 * 8 + (0 + 2)]? = some (flt (2 ^ 24)) ∧ oddSteps[2]? = some (flt 3) ∧
    IsSingle (flt (2 ^ 24)) ∧ IsSingle (flt 3) ∧
    ((translate largeBox oddSteps).1.vertices.map fun y => val32 (packF y)).take 3 =
      [2 ^ 24, 2 ^ 24 + 2, 2 ^ 24 + 4] :=
  ⟨rotatable_tiled _ _ rfl, ⟨[], _, rfl, by decide, by simp⟩, show StartsAt 4 _ _ by decide, by decide, rfl, rfl,
    flt24_single, oddSteps_single _ (by simp [oddSteps]), by decide +kernel⟩

/-- **C150.** From file to file: every finite coordinate of the file loaded, moved by a number of binary32 and
exported, is in the new file, and loaded from there, the exact sum correctly rounded. -/
theorem C150_file {pl : Plat} {k : Kind} {file bs : Bytes} (loaded : load pl k file = .ok m)
    (counts : MeshWF m) (tiled : TiledVerts vs m) (first : FirstPosition m.vattrs a)
    (start : StartsAt m.vertformat a o) (fits : o + d.length ≤ vs) (single : ∀ t ∈ d, IsSingle t)
    (exported : exportMesh pl (translate m d).1 = ⟨bs, none⟩) :
    ∃ m2, load pl m.kind bs = .ok m2 ∧ ∀ (v j : Nat) (x t : F64), o + j < vs →
      m.vertices[v * vs + (o + j)]? = some x → d[j]? = some t → x.isFin = true →
      ∃ w, m2.vertices[v * vs + (o + j)]? = some (unpackF w) ∧ Rounded32 (x.value + t.value) w := by
  obtain ⟨l, hl, hlen, -⟩ := C22_translate_moves_positions_only tiled first start fits
  have hw : MeshWF (translate m d).1 := by
    rw [hl]
    exact { counts with
      vertices := (congrArg Nat.cast hlen).trans counts.vertices
      not_one := by simpa [hlen] using counts.not_one }
  have hkind : (translate m d).1.kind = m.kind := by rw [hl]
  have h2 := C02_reload_of_export pl _ bs hw exported
  rw [hkind] at h2
  refine ⟨_, h2, ?_⟩
  intro v j x t hj hx ht fx
  obtain ⟨y, hy, hr⟩ := C150_translate tiled first start fits v j x t hj hx ht (C150_loaded loaded hx fx)
    (single t (List.mem_of_getElem? ht))
  refine ⟨packF y, ?_, hr⟩
  simp only [Mesh.map, List.getElem?_map, hy, Option.map_some]

example : ∃ file bs, load win largeBox.kind file = .ok largeBox ∧ MeshWF largeBox ∧ TiledVerts 8 largeBox ∧
    FirstPosition largeBox.vattrs ⟨0, 0, 2, 0⟩ ∧ StartsAt largeBox.vertformat ⟨0, 0, 2, 0⟩ 0 ∧
    0 + oddSteps.length ≤ 8 ∧ (∀ t ∈ oddSteps, IsSingle t) ∧
    exportMesh win (translate largeBox oddSteps).1 = ⟨bs, none⟩ := by
  have he : (exportMesh win largeBox).err = none := by decide +kernel
  have hs : exportMesh win largeBox = ⟨(exportMesh win largeBox).bytes, none⟩ := by rw [← he]
  have h2 : (exportMesh win (translate largeBox oddSteps).1).err = none := by decide +kernel
  have wf : MeshWF largeBox := rotatable_wf _ _ (by decide)
  have hl := C02_reload_of_export win _ _ wf hs
  have hm : largeBox.map (fun x => unpackF (packF x)) = largeBox := by decide +kernel
  exact ⟨_, (exportMesh win (translate largeBox oddSteps).1).bytes, hl.trans (congrArg _ hm), wf,
    rotatable_tiled _ _ rfl, ⟨[], _, rfl, by decide, by simp⟩, show StartsAt 4 _ _ by decide, by decide,
    oddSteps_single, by rw [← h2]⟩

end

/-- **C150.** With an offset that is not a number of binary32 it may be the wrong neighbour: 1 moved by a little
more than half a unit in its last place stays 1. -/
theorem C150_needs_single : ∃ x t : F64, IsSingle x ∧ t.isFin = true ∧
    ¬ Rounded32 (x.value + t.value) (packF (F64.add x t)) := by
  refine ⟨unpackF 0x3f800000, F64.ofRat false (2 ^ (-24 : ℤ) + 2 ^ (-76 : ℤ)), ?_, by decide +kernel, ?_⟩
  · exact ⟨by decide +kernel, 0x3f800000, by decide, (C51_read_exact _ (by decide)).2⟩
  · intro h
    have h1 := h.nearest (by decide +kernel) 0x3f800001 (by decide)
    revert h1
    decide +kernel

end Bf2
