import Verif.OldNums
import Verif.NumsLemmas
import Verif.OldEditLemmas

/-! # Lemmas about integer offsets and angles in the deprecated modules -/

namespace Bf2

theorem sumNums_ok {ns : List Num} {ds : List F64} (h : List.Forall₂ (fun n d => n.toDouble = .ok d) ns ds) (p : List F64) :
    sumNums p ns = .ok (List.zipWith (fun x d => FArith.add (FArith.add FArith.zero x) d) p ds) := by
  induction h generalizing p with
  | nil => cases p <;> rfl
  | cons h1 _ ih =>
    rcases p with _ | ⟨x, p⟩
    · rfl
    · rw [sumNums, h1]
      simp only
      rw [ih]
      rfl

theorem oldTranslateVertexNum_ok {ns : List Num} {ds : List F64}
    (h : List.Forall₂ (fun n d => n.toDouble = .ok d) ns ds) :
    oldTranslateVertexNum ns = oldTranslateVertex ds := by
  funext v
  unfold oldTranslateVertexNum oldTranslateVertex
  rcases v 0 with _ | p
  · rfl
  · simp only
    rw [sumNums_ok h]

/-- Only the first three numbers matter to a position of three. -/
theorem sumNums_three (x y z : F64) (a b c : Num) (rest : List Num) :
    sumNums [x, y, z] (a :: b :: c :: rest) = sumNums [x, y, z] [a, b, c] := by
  simp only [sumNums]

theorem sumNums_large (x y z : F64) {a b c : Num} (rest : List Num) (h : TooLarge a ∨ TooLarge b ∨ TooLarge c) :
    sumNums [x, y, z] (a :: b :: c :: rest) = .error .overflowError := by
  simp only [sumNums]
  rcases ha : a.toDouble with e | da
  · simp only [(toDouble_error.1 ha).2]
  rcases hb : b.toDouble with e | db
  · simp only [(toDouble_error.1 hb).2]
  rcases hc : c.toDouble with e | dc
  · simp only [(toDouble_error.1 hc).2]
  have no : ∀ {n : Num} {d : F64}, n.toDouble = .ok d → ¬ TooLarge n := fun hd hl => by
    rw [toDouble_error.2 ⟨hl, rfl⟩] at hd; cases hd
  rcases h with h | h | h
  · exact absurd h (no ha)
  · exact absurd h (no hb)
  · exact absurd h (no hc)

/-- An edit that raises on every vertex, where a material has a vertex. -/
theorem oldEdit_raises {vs : Nat} {m : OldMesh F64} (hp : Packed vs m) (hin : VertsExist m)
    {edit : VObj F64 → Except Err (VObj F64)} {e : Err}
    (step : ∀ v w, Holds v m.vattrs w → edit v = .error e) (vertex : ∃ a ∈ m.mats, 0 < a.vnum) :
    oldEdit edit m = (m, some e) := by
  obtain ⟨n, hn, hlen⟩ := hp.num
  obtain ⟨vo, hvo, hh⟩ := getVertices_holds hp.table hn hlen
  have hvl : vo.length = n := by rw [hh.length_eq, verts_length]
  unfold oldEdit
  rw [hvo]
  simp only [hvl]
  rw [mats_flatMap_ids hn hin]
  have hne : m.ids ≠ [] := by
    obtain ⟨a, ha, hv⟩ := vertex
    intro h0
    have : a.vstart.toNat ∈ m.ids :=
      List.mem_flatMap.2 ⟨a, ha, List.mem_range'_1.2 ⟨le_rfl, by omega⟩⟩
    rw [h0] at this
    cases this
  have hlt := ids_lt hn hin
  rcases hi : m.ids with _ | ⟨i, is⟩
  · exact absurd hi hne
  · have hil : i < vo.length := by
      rw [hvl]
      exact hlt i (by rw [hi]; simp)
    have hil' : i < (verts vs n m.vertices).length := by rw [← hh.length_eq]; exact hil
    have hv := step _ _ (hh.get hil hil')
    rw [List.get_eq_getElem] at hv
    simp only [foldE, pickVertex, List.getElem?_eq_getElem hil, hv]

theorem plusNums_ok {off : Vec3 Num} {d : Vec3 F64} (hx : off.x.toDouble = .ok d.x) (hy : off.y.toDouble = .ok d.y)
    (hz : off.z.toDouble = .ok d.z) (v : Vec3 F64) : v.plusNums off = .ok (v.plus d) := by
  unfold Vec3.plusNums plusNum
  rw [hx, hy, hz]
  rfl

theorem plusNums_large {off : Vec3 Num} (h : TooLarge off.x ∨ TooLarge off.y ∨ TooLarge off.z) (v : Vec3 F64) :
    v.plusNums off = .error .overflowError := by
  unfold Vec3.plusNums plusNum
  rcases ha : off.x.toDouble with e | da
  · simp only [(toDouble_error.1 ha).2]
  rcases hb : off.y.toDouble with e | db
  · simp only [(toDouble_error.1 hb).2]
  rcases hc : off.z.toDouble with e | dc
  · simp only [(toDouble_error.1 hc).2]
  have no : ∀ {n : Num} {d : F64}, n.toDouble = .ok d → ¬ TooLarge n := fun hd hl => by
    rw [toDouble_error.2 ⟨hl, rfl⟩] at hd; cases hd
  rcases h with h | h | h
  · exact absurd h (no ha)
  · exact absurd h (no hb)
  · exact absurd h (no hc)

theorem inPlace_ok {α : Type} {f : α → α × Option Err} {g : α → α} {l : List α} (h : ∀ a ∈ l, f a = (g a, none)) :
    inPlace f l = (l.map g, none) := by
  induction l with
  | nil => rfl
  | cons a l ih =>
    rw [inPlace, h a (by simp), ih fun x hx => h x (by simp [hx])]
    rfl

/-- Where every element is left as it is, with an exception for some: the exception of the first of these. -/
theorem inPlace_stay {α : Type} {f : α → α × Option Err} {P : α → Prop} {e : Err} {l : List α}
    (h : ∀ a ∈ l, (P a → f a = (a, some e)) ∧ (¬ P a → f a = (a, none))) :
    ((∃ a ∈ l, P a) → inPlace f l = (l, some e)) ∧ ((∀ a ∈ l, ¬ P a) → inPlace f l = (l, none)) := by
  induction l with
  | nil => exact ⟨fun ⟨a, ha, _⟩ => absurd ha (by simp), fun _ => rfl⟩
  | cons a l ih =>
    have ih := ih fun x hx => h x (by simp [hx])
    have ha := h a (by simp)
    constructor
    · rintro ⟨b, hb, hp⟩
      rw [inPlace]
      by_cases hpa : P a
      · rw [ha.1 hpa]
      · rw [ha.2 hpa, ih.1 ⟨b, by
          rcases List.mem_cons.1 hb with rfl | hb
          · exact absurd hp hpa
          · exact hb, hp⟩]
    · intro hn
      rw [inPlace, ha.2 (hn a (by simp)), ih.2 fun x hx => hn x (by simp [hx])]

end Bf2
