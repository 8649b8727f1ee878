import Verif.BoundsDriftSpec
import Verif.UndoLemmas
import Verif.Props.Bounds
import Verif.MovedBoundsLemmas
import Verif.OldJoinLemmas
import Verif.BoundsAlgebraLemmas

/-! # Lemmas for C186 -/

namespace Bf2

/-- Where the vertices of the materials are. -/
def Mesh.ranges (m : Mesh F64) : List (List (List (Int × Int))) :=
  m.geoms.map fun g => g.lods.map fun l => l.materials.map fun a => (a.vnum, a.vstart)

theorem ranges_erase (z : Vec3 F64) (m : Mesh F64) : (m.eraseBounds z).ranges = m.ranges := by
  simp [Mesh.ranges, Mesh.eraseBounds, Lod.eraseBounds, Function.comp_def]

theorem ranges_map (f : F64 → F64) (m : Mesh F64) : (m.map f).ranges = m.ranges := by
  simp [Mesh.ranges, Mesh.map, Geom.map, Lod.map, Mat.map, Function.comp_def]

theorem Does.frame [Libm F64] {vs : Nat} {m m1 : Mesh F64} {s : Act} (ord : Orderly vs m) (h : Does m s m1) :
    m1.ranges = m.ranges ∧ m1.vertices.length = m.vertices.length := by
  cases h with
  | @move _ d h =>
    obtain ⟨l, he, hl⟩ := translate_any ord.verts [d.x, d.y, d.z]
    rw [h] at he
    rw [show m1 = _ from he]
    exact ⟨rfl, hl⟩
  | @turn _ y q r h =>
    obtain ⟨l, he, hl, -⟩ := C26_rotate_vectors_only ord.verts ord.vectors [y, q, r] (by rw [h])
    rw [h] at he
    rw [(Prod.mk.inj he).1]
    exact ⟨rfl, hl⟩
  | update h =>
    obtain ⟨gs, he, -⟩ := update_bounded m
    have hz := C48_local ⟨F64.zero, F64.zero, F64.zero⟩ m
    rw [h] at he hz
    refine ⟨?_, by rw [show m1 = _ from he]⟩
    rw [← ranges_erase ⟨F64.zero, F64.zero, F64.zero⟩ m1, hz, ranges_erase]
  | @store _ pl file he hl =>
    have e1 : m1 = m.map fun x => unpackF (packF x) := by
      have := (C02_reload_of_export pl m file ord.wf he).symm.trans hl
      exact (Except.ok.inj this).symm
    rw [e1]
    exact ⟨ranges_map _ _, List.length_map _⟩

theorem Runs.frame [Libm F64] {vs : Nat} {m m1 : Mesh F64} {ss : List Act} (ord : Orderly vs m) (h : Runs m ss m1) :
    m1.ranges = m.ranges ∧ m1.vertices.length = m.vertices.length := by
  induction h with
  | nil => exact ⟨rfl, rfl⟩
  | cons d _ ih =>
    obtain ⟨h1, h2⟩ := d.frame ord
    obtain ⟨h3, h4⟩ := ih (step_kept ord d.step).1
    exact ⟨h3.trans h1, h4.trans h2⟩

theorem runs_format [Libm F64] {vs : Nat} {m m1 : Mesh F64} {ss : List Act} (ord : Orderly vs m) (h : Runs m ss m1) :
    SameFormat m m1 := by
  induction h with
  | nil => exact .refl _
  | cons d _ ih =>
    obtain ⟨h1, h2⟩ := step_kept ord d.step
    exact h2.trans (ih h1)

theorem forall₂_of_map {α β γ : Type} {f : α → γ} {g : β → γ} : ∀ {l : List α} {r : List β}, l.map f = r.map g →
    List.Forall₂ (fun a b => f a = g b) l r
  | [], [], _ => .nil
  | _ :: _, _ :: _, h => .cons (List.cons.inj h).1 (forall₂_of_map (List.cons.inj h).2)

theorem forall₂_pick {α β : Type} {R : α → β → Prop} : ∀ {l : List α} {r : List β}, List.Forall₂ R l r →
    ∀ b ∈ r, ∃ a ∈ l, R a b
  | _, _, .nil, b, hb => by simp at hb
  | _, _, .cons h hs, b, hb => by
    rcases List.mem_cons.1 hb with rfl | hb
    · exact ⟨_, List.mem_cons_self, h⟩
    · obtain ⟨a, ha, hr⟩ := forall₂_pick hs b hb
      exact ⟨a, List.mem_cons_of_mem _ ha, hr⟩

theorem vec3At_inside {F : Type} {l : List F} {o : Nat} {x : Vec3 F} (h : vec3At l o = some x) : o + 3 ≤ l.length := by
  obtain ⟨-, -, h⟩ := vec3At_iff.1 h
  have := (List.getElem?_eq_some_iff.1 h).1
  omega

theorem box_values {mn mx : Vec3 F64} {P : Vec3 F64 → Prop} (fin : ∀ x, P x → ∀ c, (x.comp c).isFin = true)
    (box : Hull mn mx P) (c : Fin 3) : (mn.comp c).isFin = true ∧ (mx.comp c).isFin = true ∧
      ((mn.comp c).value ≤ 0 ∧ 0 ≤ (mx.comp c).value) ∧
      ∀ x, P x → (mn.comp c).value ≤ (x.comp c).value ∧ (x.comp c).value ≤ (mx.comp c).value := by
  obtain ⟨⟨hl, h1⟩, hh, h2⟩ := box c
  have hz : (FArith.zero : F64).isFin = true := by decide
  have z : (FArith.zero : F64).value = 0 := zero_value
  have f1 : (mn.comp c).isFin = true := by
    rcases h1 with e | ⟨-, y, hy, e⟩
    · rw [e]; exact hz
    · rw [← e]; exact fin y hy c
  have f2 : (mx.comp c).isFin = true := by
    rcases h2 with e | ⟨-, y, hy, e⟩
    · rw [e]; exact hz
    · rw [← e]; exact fin y hy c
  refine ⟨f1, f2, ⟨?_, ?_⟩, fun x hx => ⟨?_, ?_⟩⟩
  · rcases h1 with e | ⟨e, -⟩
    · rw [e, z]
    · rw [← z]; exact ((lt'_iff f1 hz).1 e).le
  · rcases h2 with e | ⟨e, -⟩
    · rw [e, z]
    · rw [← z]; exact ((lt'_iff hz f2).1 e).le
  · rw [← not_lt, ← lt'_iff (fin x hx c) f1, Bool.not_eq_true]
    exact hl _ ⟨x, hx, rfl⟩
  · rw [← not_lt, ← lt'_iff f2 (fin x hx c), Bool.not_eq_true]
    exact hh _ ⟨x, hx, rfl⟩

/-- From bounds of the edited positions to bounds near the exact ones. -/
theorem near_of_tight {E : ℝ} {f : (Fin 3 → ℝ) → Fin 3 → ℝ} {mn mx : Vec3 F64} {P Q : Vec3 F64 → Prop}
    (fin : ∀ y, Q y → ∀ c, (y.comp c).isFin = true) (box : Hull mn mx Q)
    (there : ∀ x, P x → ∃ y, Q y ∧ ∀ c, |((y.comp c).value : ℝ) - f x.real.fn c| ≤ E)
    (back : ∀ y, Q y → ∃ x, P x ∧ ∀ c, |((y.comp c).value : ℝ) - f x.real.fn c| ≤ E) : NearBox E f mn mx P where
  finite := ⟨⟨(box_values fin box 0).1, (box_values fin box 1).1, (box_values fin box 2).1⟩,
    ⟨(box_values fin box 0).2.1, (box_values fin box 1).2.1, (box_values fin box 2).2.1⟩⟩
  origin := fun c => (box_values fin box c).2.2.1
  low := fun x hx c => by
    obtain ⟨y, hy, h⟩ := there x hx
    have h1 : ((mn.comp c).value : ℝ) ≤ (y.comp c).value := by exact_mod_cast ((box_values fin box c).2.2.2 y hy).1
    linarith [(abs_le.1 (h c)).2]
  high := fun x hx c => by
    obtain ⟨y, hy, h⟩ := there x hx
    have h1 : ((y.comp c).value : ℝ) ≤ (mx.comp c).value := by exact_mod_cast ((box_values fin box c).2.2.2 y hy).2
    linarith [(abs_le.1 (h c)).1]
  reachLow := fun c => (box c).1.2.imp id fun ⟨_, y, hy, e⟩ => by
    obtain ⟨x, hx, h⟩ := back y hy
    exact ⟨x, hx, by rw [← e]; exact h c⟩
  reachHigh := fun c => (box c).2.2.imp id fun ⟨_, y, hy, e⟩ => by
    obtain ⟨x, hx, h⟩ := back y hy
    exact ⟨x, hx, by rw [← e]; exact h c⟩

/-- Without moves, positions are edited like normals. -/
theorem exactAll_turns {ss : List Act} (h : ∀ d, Act.move d ∉ ss) (X : Fin 3 → ℝ) :
    exactAll true ss X = exactAll false ss X := by
  induction ss generalizing X with
  | nil => rfl
  | cons s ss ih =>
    have e : s.exact true X = s.exact false X := by
      cases s with
      | move d => exact absurd List.mem_cons_self (h d)
      | turn y p r => rfl
      | update => rfl
      | store => rfl
    show exactAll true ss (s.exact true X) = exactAll false ss (s.exact false X)
    rw [e]
    exact ih (fun d hd => h d (List.mem_cons_of_mem _ hd)) _

end Bf2
