import Verif.RecentreLemmas

/-!
# C188: centring a lod again and again

C117 says that moving a mesh by the negated `get_lod_center_offset` centres a lod only around the origin, and otherwise
halves its offset at least. How often it must be repeated is said here, in exact arithmetic.
-/

namespace Bf2

noncomputable section

/-- **C188.** The offset after `n` rounds, along an axis on which the vertices of the lod were from `lo` to `hi`. Around
the origin one round suffices. On one side of it, the offset is halved while the farthest vertex is at least `2 ^ n`
times the width away, and two rounds later it is zero. -/
theorem C188_rounds {vs o : Nat} {p : VAttr} {geomId lodId : Int} {j k n : Nat} {m m' : Mesh ℝ} {g : Geom ℝ} {l : Lod ℝ}
    (H : LodOf vs o p geomId lodId j k m g l) (h : Centred geomId lodId n m m') :
    ∃ m2 c, getLodCenterOffset m' geomId lodId true = (m2, .ok c) ∧
      ∀ i lo hi, Reaches (fun x => ∃ a ∈ l.materials, PosOf vs o m a x) i lo hi →
        (lo ≤ 0 → 0 ≤ hi → c.comp i = if n = 0 then (lo + hi) / 2 else 0) ∧
        (0 < lo → (∀ r, r < n → hi ≤ 2 ^ r * (hi - lo) → c.comp i = 0) ∧
          (∀ r, n = r + 1 → 2 ^ r * (hi - lo) ≤ hi → hi ≤ 2 ^ n * (hi - lo) →
            c.comp i = hi / 2 ^ n - (hi - lo) / 2) ∧
          (2 ^ n * (hi - lo) ≤ hi → c.comp i = hi / 2 ^ (n + 1))) ∧
        (hi < 0 → (∀ r, r < n → -lo ≤ 2 ^ r * (hi - lo) → c.comp i = 0) ∧
          (∀ r, n = r + 1 → 2 ^ r * (hi - lo) ≤ -lo → -lo ≤ 2 ^ n * (hi - lo) →
            c.comp i = lo / 2 ^ n + (hi - lo) / 2) ∧
          (2 ^ n * (hi - lo) ≤ -lo → c.comp i = lo / 2 ^ (n + 1))) := by
  induction h generalizing g l with
  | none =>
    obtain ⟨mu, m1, c, g', l', h1, -, -, hr⟩ := centre_step H
    refine ⟨mu, c, h1, fun i lo hi r => ?_⟩
    obtain ⟨e, -⟩ := hr i lo hi r
    obtain ⟨x, hx, ex⟩ := r.low
    have le : lo ≤ hi := by rw [← ex]; exact (r.between x hx).2
    refine ⟨fun h1 h2 => by rw [e, min_eq_right h1, max_eq_right h2, if_pos rfl], fun h => ⟨fun _ h => absurd h (by omega), fun _ h => absurd h (by omega), fun _ => ?_⟩,
      fun h => ⟨fun _ h => absurd h (by omega), fun _ h => absurd h (by omega), fun _ => ?_⟩⟩
    · rw [e, min_eq_left h.le, max_eq_right (h.le.trans le)]; ring
    · rw [e, min_eq_right (le.trans h.le), max_eq_left h.le]; ring
  | @again n m mu m1 m' c h1 h2 h3 ih =>
    obtain ⟨mu', m1', c', g', l', e1, e2, H1, hr⟩ := centre_step H
    rw [h1] at e1
    obtain ⟨rfl, e⟩ := Prod.mk.inj e1
    obtain rfl := Except.ok.inj e
    rw [h2] at e2
    obtain ⟨rfl, -⟩ := Prod.mk.inj e2
    obtain ⟨m2, d, hd, hn⟩ := ih H1
    refine ⟨m2, d, hd, fun i lo hi r => ?_⟩
    obtain ⟨ec, r1⟩ := hr i lo hi r
    obtain ⟨s1, s2, s3⟩ := hn i _ _ r1
    obtain ⟨x, hx, ex⟩ := r.low
    have le : lo ≤ hi := by rw [← ex]; exact (r.between x hx).2
    clear hr hn r1 hx ex
    generalize c.comp i = t at *
    generalize d.comp i = y at *
    have two : (1 : ℝ) ≤ 2 ^ n := one_le_pow₀ (by norm_num)
    have p1 : (2 : ℝ) ^ (n + 1) = 2 * 2 ^ n := by rw [pow_succ]; ring
    have p2 : (2 : ℝ) ^ (n + 1 + 1) = 2 * 2 ^ (n + 1) := by rw [pow_succ _ (n + 1)]; ring
    refine ⟨fun h1 h2 => ?_, fun h => ?_, fun h => ?_⟩
    · rw [min_eq_right h1, max_eq_right h2] at ec
      rw [s1 (by linarith) (by linarith), if_neg (Nat.succ_ne_zero n)]
      split
      · rw [ec]; ring
      · rfl
    · have h0 : 0 < hi := h.trans_le le
      rw [min_eq_left h.le, max_eq_right h0.le, zero_add] at ec
      subst ec
      rcases le_or_gt (lo - hi / 2) 0 with h5 | h5
      · have e := s1 h5 (by linarith)
        refine ⟨?_, ?_, ?_⟩
        · intro r hr h6
          rcases Nat.eq_zero_or_pos n with rfl | h7
          · obtain rfl : r = 0 := by omega
            rw [pow_zero] at h6
            linarith
          · rw [e, if_neg h7.ne']
        · intro r hr h6 h9
          obtain rfl : n = r := by omega
          rcases n with _ | _ | n
          · rw [e, if_pos rfl]
            norm_num
            ring
          · rw [e, if_neg (by omega)]
            norm_num at h6 ⊢
            linarith
          · have four : (4 : ℝ) ≤ 2 ^ (n + 1 + 1) := by
              calc (4 : ℝ) = 2 ^ 2 := by norm_num
                _ ≤ 2 ^ (n + 1 + 1) := pow_le_pow_right₀ (by norm_num) (by omega)
            nlinarith
        · intro h6
          rw [p1] at h6
          have h8 : 2 ^ n * hi ≤ hi := by nlinarith
          rcases Nat.eq_zero_or_pos n with rfl | h7
          · rw [e, if_pos rfl]
            rw [pow_zero] at h6
            norm_num
            linarith
          · have : (2 : ℝ) ≤ 2 ^ n := by
              calc (2 : ℝ) = 2 ^ 1 := (pow_one 2).symm
                _ ≤ 2 ^ n := pow_le_pow_right₀ (by norm_num) h7
            nlinarith
      · obtain ⟨q1, q0, q2⟩ := s2 h5
        refine ⟨?_, ?_, ?_⟩
        · intro r hr h6
          rcases r with _ | r
          · rw [pow_zero] at h6
            linarith
          · refine q1 r (by omega) ?_
            rw [pow_succ] at h6
            linarith
        · intro r hr h6 h9
          obtain rfl : n = r := by omega
          rcases n with _ | n
          · rw [zero_add, pow_one] at h9
            linarith
          · rw [p1] at h9
            have p3 : (2 : ℝ) ^ (n + 1) = 2 * 2 ^ n := by rw [pow_succ]; ring
            rw [p3] at h6
            rw [q0 n rfl (by linarith) (by linarith), p1]
            field_simp
            ring
        · intro h6
          rw [p1] at h6
          rw [q2 (by linarith), p2, div_eq_div_iff (by positivity) (by positivity)]
          ring
    · have h0 : lo < 0 := le.trans_lt h
      rw [min_eq_right h0.le, max_eq_left h.le, add_zero] at ec
      subst ec
      rcases le_or_gt 0 (hi - lo / 2) with h5 | h5
      · have e := s1 (by linarith) h5
        refine ⟨?_, ?_, ?_⟩
        · intro r hr h6
          rcases Nat.eq_zero_or_pos n with rfl | h7
          · obtain rfl : r = 0 := by omega
            rw [pow_zero] at h6
            linarith
          · rw [e, if_neg h7.ne']
        · intro r hr h6 h9
          obtain rfl : n = r := by omega
          rcases n with _ | _ | n
          · rw [e, if_pos rfl]
            norm_num
            ring
          · rw [e, if_neg (by omega)]
            norm_num at h6 ⊢
            linarith
          · have four : (4 : ℝ) ≤ 2 ^ (n + 1 + 1) := by
              calc (4 : ℝ) = 2 ^ 2 := by norm_num
                _ ≤ 2 ^ (n + 1 + 1) := pow_le_pow_right₀ (by norm_num) (by omega)
            nlinarith
        · intro h6
          rw [p1] at h6
          have h8 : 2 ^ n * -lo ≤ -lo := by nlinarith
          rcases Nat.eq_zero_or_pos n with rfl | h7
          · rw [e, if_pos rfl]
            rw [pow_zero] at h6
            norm_num
            linarith
          · have : (2 : ℝ) ≤ 2 ^ n := by
              calc (2 : ℝ) = 2 ^ 1 := (pow_one 2).symm
                _ ≤ 2 ^ n := pow_le_pow_right₀ (by norm_num) h7
            nlinarith
      · obtain ⟨q1, q0, q2⟩ := s3 h5
        refine ⟨?_, ?_, ?_⟩
        · intro r hr h6
          rcases r with _ | r
          · rw [pow_zero] at h6
            linarith
          · refine q1 r (by omega) ?_
            rw [pow_succ] at h6
            linarith
        · intro r hr h6 h9
          obtain rfl : n = r := by omega
          rcases n with _ | n
          · rw [zero_add, pow_one] at h9
            linarith
          · rw [p1] at h9
            have p3 : (2 : ℝ) ^ (n + 1) = 2 * 2 ^ n := by rw [pow_succ]; ring
            rw [p3] at h6
            rw [q0 n rfl (by linarith) (by linarith), p1]
            field_simp
            ring
        · intro h6
          rw [p1] at h6
          rw [q2 (by linarith), p2, div_eq_div_iff (by positivity) (by positivity)]
          ring

/-- **C188.** Any number of rounds succeeds. -/
theorem C188_succeeds {vs o : Nat} {p : VAttr} {geomId lodId : Int} {j k : Nat} {m : Mesh ℝ} {g : Geom ℝ} {l : Lod ℝ}
    (H : LodOf vs o p geomId lodId j k m g l) (n : Nat) : ∃ m', Centred geomId lodId n m m' := by
  induction n generalizing m g l with
  | zero => exact ⟨m, .none⟩
  | succ n ih =>
    obtain ⟨mu, m1, c, g', l', h1, h2, H1, -⟩ := centre_step H
    obtain ⟨m', h⟩ := ih H1
    exact ⟨m', .again h1 h2 h⟩

/-- **C188.** A lod that is flat along an axis, away from the origin, is never centred along it. -/
theorem C188_flat {vs o : Nat} {p : VAttr} {geomId lodId : Int} {j k n : Nat} {m m' m2 : Mesh ℝ} {g : Geom ℝ}
    {l : Lod ℝ} {c : Vec3 ℝ} {i : Fin 3} {t : ℝ} (H : LodOf vs o p geomId lodId j k m g l)
    (h : Centred geomId lodId n m m') (hc : getLodCenterOffset m' geomId lodId true = (m2, .ok c))
    (flat : Reaches (fun x => ∃ a ∈ l.materials, PosOf vs o m a x) i t t) (off : t ≠ 0) :
    c.comp i = t / 2 ^ (n + 1) ∧ c.comp i ≠ 0 := by
  obtain ⟨m3, c', h3, hr⟩ := C188_rounds H h
  rw [hc] at h3
  obtain rfl := Except.ok.inj (Prod.mk.inj h3).2
  obtain ⟨-, h1, h2⟩ := hr i t t flat
  have e : c.comp i = t / 2 ^ (n + 1) := by
    rcases lt_or_gt_of_ne off with h | h
    · exact (h2 h).2.2 (by rw [sub_self, mul_zero]; linarith)
    · exact (h1 h).2.2 (by rw [sub_self, mul_zero]; linarith)
  exact ⟨e, by rw [e]; exact div_ne_zero off (by positivity)⟩

/-! ## The cases are met -/

/-- Positions (1, -2, 3) and (3, 2, 3). -/
def asideBox : Mesh ℝ := boxed 0 [1, -2, 3, 0, 0, 0, 0, 0, 3, 2, 3, 0, 0, 0, 0, 0]

theorem asideBox_lod : ∃ g l, LodOf 8 0 ⟨0, 0, 2, 0⟩ 0 (-1) 0 0 asideBox g l ∧
    Reaches (fun x => ∃ a ∈ l.materials, PosOf 8 0 asideBox a x) 0 1 3 ∧
    Reaches (fun x => ∃ a ∈ l.materials, PosOf 8 0 asideBox a x) 1 (-2) 2 ∧
    Reaches (fun x => ∃ a ∈ l.materials, PosOf 8 0 asideBox a x) 2 3 3 := by
  have ht := rotatable_tiled (0 : ℝ) [1, -2, 3, 0, 0, 0, 0, 0, 3, 2, 3, 0, 0, 0, 0, 0] rfl
  refine ⟨_, _, ⟨⟨ht.pos, ht.size, ht.nonneg, ht.start, ht.total⟩, boxed_bounded _ _,
    ⟨[], _, rfl, by decide, by decide⟩, boxed_position _ _, boxed_known _ _,
    by unfold Names; exact ⟨by simp [asideBox, boxed, rotatable, meshOf], by simp⟩, rfl,
    by unfold Names; simp [geomOf], rfl⟩, ?_⟩
  have pts : ∀ x : Vec3 ℝ, (∃ a ∈ [matOf (0, 1, 0, 3), matOf (1, 1, 3, 3)], PosOf 8 0 asideBox a x) →
      x = ⟨1, -2, 3⟩ ∨ x = ⟨3, 2, 3⟩ := by
    rintro x ⟨a, ha, v, hv, hx⟩
    simp only [List.mem_cons, List.not_mem_nil, or_false] at ha
    rcases ha with rfl | rfl
    · have hv : (v : Int) < 1 := hv
      obtain rfl : v = 0 := by omega
      exact Or.inl (Option.some.inj hx).symm
    · have hv : (v : Int) < 1 := hv
      obtain rfl : v = 0 := by omega
      exact Or.inr (Option.some.inj hx).symm
  have one : ∃ a ∈ [matOf (0, 1, 0, 3), matOf (1, 1, 3, 3)], PosOf 8 0 asideBox a (⟨1, -2, 3⟩ : Vec3 ℝ) :=
    ⟨_, List.mem_cons_self, 0, by simp [matOf], rfl⟩
  have two : ∃ a ∈ [matOf (0, 1, 0, 3), matOf (1, 1, 3, 3)], PosOf 8 0 asideBox a (⟨3, 2, 3⟩ : Vec3 ℝ) :=
    ⟨_, List.mem_cons_of_mem _ List.mem_cons_self, 0, by simp [matOf], rfl⟩
  refine ⟨⟨fun x hx => ?_, ⟨_, one, rfl⟩, ⟨_, two, rfl⟩⟩, ⟨fun x hx => ?_, ⟨_, one, rfl⟩, ⟨_, two, rfl⟩⟩,
    ⟨fun x hx => ?_, ⟨_, one, rfl⟩, ⟨_, two, rfl⟩⟩⟩ <;>
    rcases pts x hx with rfl | rfl <;> norm_num [Vec3.comp]

/-- Along the first axis the box is centred by two rounds but not by one, along the second by one, and along the third
by no number of rounds. -/
example (n : Nat) : ∃ m', Centred 0 (-1) n asideBox m' ∧ ∃ m2 c, getLodCenterOffset m' 0 (-1) true = (m2, .ok c) ∧
    (n = 1 → c.x = 1 / 2) ∧ (2 ≤ n → c.x = 0) ∧ (1 ≤ n → c.y = 0) ∧ c.z = 3 / 2 ^ (n + 1) := by
  obtain ⟨g, l, H, r0, r1, r2⟩ := asideBox_lod
  obtain ⟨m', h⟩ := C188_succeeds H n
  obtain ⟨m2, c, hc, hr⟩ := C188_rounds H h
  refine ⟨m', h, m2, c, hc, fun e => ?_, fun e => ?_, fun e => ?_, (C188_flat H h hc r2 (by norm_num)).1⟩
  · subst e
    have := ((hr 0 _ _ r0).2.1 (by norm_num)).2.1 0 rfl (by norm_num) (by norm_num)
    exact this.trans (by norm_num)
  · exact ((hr 0 _ _ r0).2.1 (by norm_num)).1 1 e (by norm_num)
  · have := (hr 1 _ _ r1).1 (by norm_num) (by norm_num)
    rwa [if_neg (by omega)] at this

end

end Bf2
