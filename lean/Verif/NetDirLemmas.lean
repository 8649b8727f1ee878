import Verif.NetDirSpec
import Verif.WinDirLemmas

/-! # Lemmas on paths on the network -/

namespace Bf2

theorem ntFind_first {pre a b : Str} {s : Char} (hs : ntIsSep s = true) (ha : ∀ c ∈ a, ntIsSep c = false) :
    ntFind (ntNorm (pre ++ a ++ s :: b)) pre.length = some (pre.length + a.length) := by
  have hn : ntNorm (pre ++ a ++ s :: b) = ntNorm pre ++ (ntNorm a ++ '\\' :: ntNorm b) := by
    unfold ntNorm
    rcases ntIsSep_iff.1 hs with rfl | rfl <;> simp
  have hl : (ntNorm pre).length = pre.length := by simp [ntNorm]
  have hla : (ntNorm a).length = a.length := by simp [ntNorm]
  unfold ntFind
  rw [hn, ← hl, List.drop_left]
  have hz : ((ntNorm a ++ '\\' :: ntNorm b).findIdx? (· == '\\')) = some a.length := by
    rw [List.findIdx?_append, List.findIdx?_eq_none_iff.2]
    · simp [hla, List.findIdx?_cons]
    · intro c hc
      obtain ⟨d, hd, rfl⟩ := List.mem_map.1 hc
      have := ntIsSep_false.1 (ha d hd)
      have h1 : d ≠ '/' := fun e => this (.inr e)
      have h2 : d ≠ '\\' := fun e => this (.inl e)
      simp [h1, h2]
  rw [hz]
  rfl

theorem ntFind_none {pre a : Str} (ha : ∀ c ∈ a, ntIsSep c = false) :
    ntFind (ntNorm (pre ++ a)) pre.length = none := by
  have hn : ntNorm (pre ++ a) = ntNorm pre ++ ntNorm a := by simp [ntNorm]
  have hl : (ntNorm pre).length = pre.length := by simp [ntNorm]
  unfold ntFind
  rw [hn, ← hl, List.drop_left, List.findIdx?_eq_none_iff.2]
  · rfl
  · intro c hc
    obtain ⟨d, hd, rfl⟩ := List.mem_map.1 hc
    have := ntIsSep_false.1 (ha d hd)
    have h1 : d ≠ '/' := fun e => this (.inr e)
    have h2 : d ≠ '\\' := fun e => this (.inl e)
    simp [h1, h2]

theorem upper_other {c d : Char} (h : (if 'a' ≤ c ∧ c ≤ 'z' then Char.ofNat (c.toNat - 32) else c) = d)
    (hd : ¬ ('A' ≤ d ∧ d ≤ 'Z')) : c = d := by
  split_ifs at h with hc
  · exfalso
    apply hd
    have h1 : 97 ≤ c.toNat := hc.1
    have h2 : c.toNat ≤ 122 := hc.2
    have h3 : d.toNat = c.toNat - 32 := by
      rw [← h]
      have hv : (c.toNat - 32).isValidChar := .inl (by omega)
      simp only [Char.ofNat, hv, dif_pos]
      rfl
    constructor
    · show 65 ≤ d.toNat
      omega
    · show d.toNat ≤ 90
      omega
  · exact h

theorem netStart_norm {pre : Str} (h : NetStart pre) (server rest : Str) (s : Char) (hs : ntIsSep s = true)
    (plain : server ≠ ['?']) (hf : ∀ c ∈ server, ntIsSep c = false) :
    (ntNorm (pre ++ server ++ s :: rest)).take 1 = ['\\'] ∧
      ((ntNorm (pre ++ server ++ s :: rest)).drop 1).take 1 = ['\\'] ∧
      (if ntUpper ((ntNorm (pre ++ server ++ s :: rest)).take 8) = "\\\\?\\UNC\\".toList then 8 else 2) = pre.length := by
  have sep : ∀ c, ntIsSep c = true → (if c = '/' then '\\' else c) = '\\' := by
    intro c hc
    rcases ntIsSep_iff.1 hc with rfl | rfl <;> rfl
  have other : ∀ c, ntIsSep c = false → (if c = '/' then '\\' else c) = c := fun c hc =>
    if_neg fun e => ntIsSep_false.1 hc (.inr e)
  cases h with
  | @short u t hu ht =>
    rw [WinSep, ← ntIsSep_iff] at hu ht
    refine ⟨by simp [ntNorm, sep u hu], by simp [ntNorm, sep t ht], ?_⟩
    rw [if_neg]
    · rfl
    · intro e
      rw [show "\\\\?\\UNC\\".toList = ['\\', '\\', '?', '\\', 'U', 'N', 'C', '\\'] from rfl] at e
      obtain _ | ⟨c, _ | ⟨d, server⟩⟩ := server
      · simp [ntNorm, ntUpper, sep _ hs] at e
      · have hc := hf c (by simp)
        simp only [ntNorm, ntUpper, List.cons_append, List.nil_append, List.map_cons, List.take_succ_cons,
          other c hc] at e
        have e2 := (List.cons.inj (List.cons.inj (List.cons.inj e).2).2).1
        exact plain (by rw [upper_other e2 (by decide)])
      · have hd := hf d (by simp)
        simp only [ntNorm, ntUpper, List.cons_append, List.nil_append, List.map_cons, List.take_succ_cons,
          other d hd] at e
        have e2 := (List.cons.inj (List.cons.inj (List.cons.inj (List.cons.inj e).2).2).2).1
        exact ntIsSep_false.1 hd (.inl (upper_other e2 (by decide)))
  | long h1 h2 h3 h4 ha hb hc =>
    rw [WinSep, ← ntIsSep_iff] at h1 h2 h3 h4
    refine ⟨by simp [ntNorm, sep _ h1], by simp [ntNorm, sep _ h2], ?_⟩
    rw [if_pos]
    · rfl
    · simp only [ntNorm, List.cons_append, List.nil_append, List.map_cons, List.take_succ_cons, List.take_zero,
        sep _ h1, sep _ h2, sep _ h3, sep _ h4]
      rcases ha with rfl | rfl <;> rcases hb with rfl | rfl <;> rcases hc with rfl | rfl <;> decide

/-- The directory of a path on the network. -/
theorem dir_net {pre server share rest : Str} {s t : Char} (h : NetStart pre) (hs : ntIsSep s = true)
    (ht : ntIsSep t = true) (plain : server ≠ ['?']) (hf : ∀ c ∈ server, ntIsSep c = false)
    (hg : ∀ c ∈ share, ntIsSep c = false) :
    ntDirname (pre ++ server ++ s :: (share ++ t :: rest)) =
      pre ++ server ++ s :: (share ++ [t]) ++ ntRstrip (ntHead rest) := by
  obtain ⟨h1, h2, h3⟩ := netStart_norm h server (share ++ t :: rest) s hs plain hf
  have f1 := ntFind_first (pre := pre) (b := share ++ t :: rest) hs hf
  have f2 := ntFind_first (pre := pre ++ server ++ [s]) (b := rest) ht hg
  have e : pre ++ server ++ [s] ++ share ++ t :: rest = pre ++ server ++ s :: (share ++ t :: rest) := by simp
  rw [e] at f2
  have l1 : (pre ++ server ++ [s]).length = pre.length + server.length + 1 := by simp; omega
  rw [l1] at f2
  have l2 : (pre ++ server ++ s :: share).length = pre.length + server.length + 1 + share.length := by
    simp; omega
  have e2 : pre ++ server ++ s :: (share ++ t :: rest) = (pre ++ server ++ s :: share) ++ t :: rest := by simp
  unfold ntDirname ntSplitroot
  simp only [h1, h2, h3, f1, f2, if_true]
  rw [e2, ← l2, List.take_left, List.drop_left, ← List.drop_drop, List.drop_left]
  simp

/-- The share itself. -/
theorem dir_share {pre server share : Str} {s : Char} (h : NetStart pre) (hs : ntIsSep s = true)
    (plain : server ≠ ['?']) (hf : ∀ c ∈ server, ntIsSep c = false)
    (hg : ∀ c ∈ share, ntIsSep c = false) :
    ntDirname (pre ++ server ++ s :: share) = pre ++ server ++ s :: share := by
  obtain ⟨h1, h2, h3⟩ := netStart_norm h server share s hs plain hf
  have f1 := ntFind_first (pre := pre) (b := share) hs hf
  have f2 := ntFind_none (pre := pre ++ server ++ [s]) hg
  have e : pre ++ server ++ [s] ++ share = pre ++ server ++ s :: share := by simp
  rw [e] at f2
  have l1 : (pre ++ server ++ [s]).length = pre.length + server.length + 1 := by simp; omega
  rw [l1] at f2
  unfold ntDirname ntSplitroot
  simp only [h1, h2, h3, f1, f2, if_true]
  simp [ntHead, ntRstrip]

end Bf2
