import Verif.Cost
import Verif.CostSpec
import Verif.FormatLemmas

/-! # Lemmas about the objects made by the loader -/

namespace Bf2

namespace Tally
variable {α β : Type}

theorem bind_run (x : Tally α) (f : α → Tally β) (s : Bytes) :
    (x >>= f) s = match x s with
      | (n, .error e) => (n, .error e)
      | (n, .ok (a, r)) => (n + (f a r).1, (f a r).2) := rfl

theorem pure_run (a : α) (s : Bytes) : (pure a : Tally α) s = (0, .ok (a, s)) := rfl

theorem lift_bind {p : P α} {f : α → Tally β} {s r : Bytes} {a : α} (h : p s = .ok (a, r)) :
    (lift p >>= f) s = f a r := by
  rw [bind_run]
  unfold lift
  rw [h]
  exact Prod.ext (Nat.zero_add _) rfl

theorem bind_made {x : Tally α} {f : α → Tally β} {s r : Bytes} {a : α} {n k : Nat} {res : Except Err (β × Bytes)}
    (h : x s = (n, .ok (a, r))) (h' : f a r = (k, res)) : (x >>= f) s = (n + k, res) := by
  rw [bind_run, h]
  dsimp only
  rw [h']

theorem bind_raised {x : Tally α} {f : α → Tally β} {s : Bytes} {n : Nat} {e : Err}
    (h : x s = (n, .error e)) : (x >>= f) s = (n, .error e) := by
  rw [bind_run, h]

/-- The reader without the count. -/
def erase (x : Tally α) : P α := fun s => (x s).2

theorem erase_pure (a : α) : erase (pure a) = pure a := rfl
theorem erase_lift (p : P α) : erase (lift p) = p := rfl
theorem erase_make (n : Nat) : erase (make n) = pure () := rfl

theorem erase_bind (x : Tally α) (f : α → Tally β) : erase (x >>= f) = erase x >>= fun a => erase (f a) := by
  funext s
  rw [P.bind_run]
  unfold erase
  rw [bind_run]
  rcases h : x s with ⟨n, e | ⟨a, r⟩⟩ <;> rfl

theorem erase_rep (x : Tally α) (n : Nat) : erase (rep x n) = P.rep (erase x) n := by
  induction n with
  | zero => rfl
  | succ n ih =>
    rw [rep, P.rep, erase_bind]
    congr 1; funext a
    rw [erase_bind, ih]; rfl

theorem erase_each (f : α → Tally β) (l : List α) : erase (each f l) = P.each (fun a => erase (f a)) l := by
  induction l with
  | nil => rfl
  | cons a l ih =>
    rw [each, P.each, erase_bind]
    congr 1; funext b
    rw [erase_bind, ih]; rfl

theorem erase_ite (c : Prop) [Decidable c] (x y : Tally α) :
    erase (if c then x else y) = if c then erase x else erase y := by split <;> rfl

end Tally

open Tally in
theorem tallyCount_erase (pl : Plat) : erase (tallyCount pl) = readLong pl := by
  unfold tallyCount
  simp only [erase_bind, erase_lift, erase_make, erase_pure, pure_bind, bind_pure]

variable {F : Type} [FCodec F]

open Tally in
theorem tallyBody_erase (pl : Plat) (kind : Kind) : erase (tallyBody (F := F) pl kind) = loadBody pl kind := by
  have rig : erase (tallyRig (F := F) pl) = loadRig pl := by
    unfold tallyRig loadRig
    simp only [erase_bind, erase_rep, erase_lift, erase_pure, tallyCount_erase]
  have nodes : ∀ v, erase (tallyLodNodes (F := F) pl v kind) = loadLodNodes pl v kind := by
    intro v
    unfold tallyLodNodes loadLodNodes
    simp only [erase_bind, erase_rep, erase_lift, erase_pure, erase_ite, tallyCount_erase, rig]
  have mats : ∀ v (l : Lod F), erase (tallyLodMaterials pl v kind l) = loadLodMaterials pl v kind l := by
    intro v l
    unfold tallyLodMaterials loadLodMaterials
    simp only [erase_bind, erase_rep, erase_lift, erase_pure, tallyCount_erase]
  have gnodes : ∀ v, (fun n => erase (tallyGeomNodes (F := F) pl v kind n)) = loadGeomNodes pl v kind := by
    intro v; funext n
    unfold tallyGeomNodes loadGeomNodes
    simp only [erase_bind, erase_rep, erase_pure, nodes]
  have gmats : ∀ v, (fun g : Geom F => erase (tallyGeomMaterials pl v kind g)) = loadGeomMaterials pl v kind := by
    intro v; funext g
    unfold tallyGeomMaterials loadGeomMaterials
    simp only [erase_bind, erase_each, erase_pure, mats]
  unfold tallyBody loadBody
  simp only [erase_bind, erase_rep, erase_each, erase_lift, erase_pure, tallyCount_erase, gnodes, gmats]

theorem loadTally_erase (pl : Plat) (kind : Kind) (file : Bytes) :
    (loadTally F pl kind file).2 = load pl kind file := by
  unfold loadTally load
  rw [← tallyBody_erase]
  unfold Tally.erase
  rcases tallyBody (F := F) pl kind file with ⟨n, e | ⟨m, _ | _⟩⟩ <;> rfl

/-! ## What is read at least -/

/-- A successful `p` has read `k` bytes or more. -/
def Eats {α : Type} (p : P α) (k : Nat) : Prop := ∀ s a r, p s = .ok (a, r) → k + r.length ≤ s.length

namespace Eats
variable {α β : Type}

theorem pure (a : α) : Eats (pure a : P α) 0 := by
  intro s b r h
  rw [P.pure_ok] at h
  rw [h.2, Nat.zero_add]

theorem raise (e : Err) (k : Nat) : Eats (P.raise e : P α) k := fun _ _ _ h => by cases h

theorem bind {p : P α} {f : α → P β} {k n : Nat} (hp : Eats p k) (hf : ∀ a, Eats (f a) n) :
    Eats (p >>= f) (k + n) := by
  intro s b r h
  obtain ⟨a, s', h1, h2⟩ := P.bind_ok.1 h
  have := hp s a s' h1
  have := hf a s' b r h2
  omega

theorem weaken {p : P α} {k n : Nat} (h : Eats p k) (hn : n ≤ k) : Eats p n := by
  intro s a r hr
  have := h s a r hr
  omega

/-- Something is read first. -/
theorem first {p : P α} {f : α → P β} {k : Nat} (hp : Eats p k) (hf : ∀ a, Eats (f a) 0) :
    Eats (p >>= f) k := bind hp hf

theorem rep {p : P α} (hp : Eats p 0) (n : Nat) : Eats (P.rep p n) 0 := by
  induction n with
  | zero => exact pure _
  | succ n ih => exact bind hp fun _ => bind ih fun _ => pure _

theorem readBytes (n : Nat) : Eats (readBytes n) n := by
  intro s a r h
  obtain ⟨h1, h2⟩ := readBytes_ok.1 h
  rw [h2, List.length_append, h1]

theorem ite {c : Prop} [Decidable c] {p q : P α} {k : Nat} (hp : Eats p k) (hq : Eats q k) :
    Eats (if c then p else q) k := by split <;> assumption

theorem readLong (pl : Plat) : Eats (readLong pl) pl.longSize := bind (readBytes _) fun _ => pure _
theorem readShort1 (pl : Plat) : Eats (readShort1 pl) 2 := bind (readBytes _) fun _ => pure _
theorem readByte : Eats readByte 1 := bind (readBytes _) fun _ => pure _

theorem readLong0 (pl : Plat) : Eats (Bf2.readLong pl) 0 := (readLong pl).weaken (Nat.zero_le _)

theorem readCount {p : P α} (hp : Eats p 0) (n : Int) : Eats (readCount p n) 0 :=
  ite (raise _ _) (ite (bind hp fun _ => pure _) (bind (rep hp _) fun _ => pure _))

theorem readString (pl : Plat) : Eats (readString pl) 0 :=
  bind (readLong0 pl) fun _ => ite (raise _ _) ((readBytes _).weaken (Nat.zero_le _))

theorem readFloat1 (pl : Plat) : Eats (readFloat1 (F := F) pl) 0 :=
  (bind (readBytes _) fun _ => pure _ : Eats _ 4).weaken (Nat.zero_le _)

theorem readFloat3 (pl : Plat) : Eats (readFloat3 (F := F) pl) 0 :=
  bind (readFloat1 pl) fun _ => bind (readFloat1 pl) fun _ => bind (readFloat1 pl) fun _ => pure _

theorem readFloat4 (pl : Plat) : Eats (readFloat4 (F := F) pl) 0 :=
  bind (readFloat1 pl) fun _ => bind (readFloat1 pl) fun _ => bind (readFloat1 pl) fun _ =>
    bind (readFloat1 pl) fun _ => pure _

theorem readMatrix4 (pl : Plat) : Eats (readMatrix4 (F := F) pl) 0 :=
  bind (readFloat4 pl) fun _ => bind (readFloat4 pl) fun _ => bind (readFloat4 pl) fun _ =>
    bind (readFloat4 pl) fun _ => pure _

theorem loadHead (pl : Plat) : Eats (loadHead pl) (5 * pl.longSize) :=
  (bind (readLong pl) fun _ => bind (readLong pl) fun _ => bind (readLong pl) fun _ =>
    bind (readLong pl) fun _ => bind (readLong pl) fun _ => pure _ : Eats _ _).weaken (by omega)

theorem loadVAttr (pl : Plat) : Eats (loadVAttr pl) 8 :=
  bind (readShort1 pl) fun _ => bind (readShort1 pl) fun _ => bind (readShort1 pl) fun _ =>
    bind (readShort1 pl) fun _ => pure _

theorem loadVertices (pl : Plat) (a b c : Int) : Eats (loadVertices (F := F) pl a b c) 0 := by
  unfold Bf2.loadVertices
  split
  · exact raise _ _
  · refine first (readCount (readFloat1 (F := F) pl) _) fun x => ?_
    cases x
    · exact raise _ _
    · exact pure _

theorem loadBone (pl : Plat) : Eats (loadBone (F := F) pl) pl.longSize :=
  bind (readLong pl) fun _ => bind (readMatrix4 pl) fun _ => pure _

theorem loadMat (pl : Plat) (v : Int) (k : Kind) : Eats (loadMat (F := F) pl v k) pl.longSize :=
  weaken (p := Bf2.loadMat (F := F) pl v k) (bind (ite (pure _) (bind (readLong0 pl) fun _ => pure _)) fun _ =>
  bind (readString pl) fun _ => bind (readString pl) fun _ => bind (readLong pl) fun _ =>
  bind (rep (readString pl) _) fun _ => bind (readLong0 pl) fun _ => bind (readLong0 pl) fun _ =>
  bind (readLong0 pl) fun _ => bind (readLong0 pl) fun _ => bind (readLong0 pl) fun _ =>
  bind (readLong0 pl) fun _ =>
    ite (bind (readFloat3 (F := F) pl) fun _ => bind (readFloat3 (F := F) pl) fun _ => pure _) (pure _)) (by omega)

theorem loadPivot (pl : Plat) (v : Int) : Eats (loadPivot (F := F) pl v) 0 :=
  ite (bind (readFloat3 pl) fun _ => pure _) (pure _)

theorem loadNodes (pl : Plat) (k : Kind) (n : Int) : Eats (loadNodes (F := F) pl k n) 0 :=
  ite (pure _) (rep (readMatrix4 pl) _)

theorem loadU2 (pl : Plat) (k : Kind) : Eats (loadU2 pl k) 0 := ite (pure _) (readLong0 pl)

end Eats

/-! ## At most -/

/-- Bytes left behind by a reader that did not raise. -/
def rest {α : Type} : Except Err (α × Bytes) → Nat
  | .ok (_, r) => r.length
  | .error _ => 0

/-- Numbers a count can be. -/
def Plat.countLimit (pl : Plat) : Nat := 2 ^ (8 * pl.longSize - 1)

/-- Each object made was asked for by a count that was read. -/
def Capped {α : Type} (pl : Plat) (x : Tally α) : Prop := ∀ s,
  pl.longSize * (x s).1 + pl.countLimit * rest (x s).2 ≤ pl.countLimit * s.length

namespace Capped
variable {α β : Type} {pl : Plat}

theorem pure (a : α) : Capped pl (pure a : Tally α) := by
  intro s
  rw [Tally.pure_run]
  simp [rest]

theorem lift {p : P α} {k : Nat} (h : Eats p k) : Capped pl (Tally.lift p) := by
  intro s
  show pl.longSize * 0 + pl.countLimit * rest (p s) ≤ _
  rcases hp : p s with e | ⟨a, r⟩
  · simp [rest]
  · have := h s a r hp
    rw [Nat.mul_zero, Nat.zero_add]
    exact Nat.mul_le_mul_left _ (show r.length ≤ _ by omega)

theorem bind {x : Tally α} {f : α → Tally β} (hx : Capped pl x) (hf : ∀ a, Capped pl (f a)) :
    Capped pl (x >>= f) := by
  intro s
  have h1 := hx s
  rw [Tally.bind_run]
  rcases h : x s with ⟨n, e | ⟨a, r⟩⟩
  · rw [h] at h1
    exact h1
  · rw [h] at h1
    have h2 := hf a r
    simp only [rest] at h1
    dsimp only
    rw [Nat.mul_add]
    omega

theorem ite {c : Prop} [Decidable c] {x y : Tally α} (hx : Capped pl x) (hy : Capped pl y) :
    Capped pl (if c then x else y) := by split <;> assumption

theorem rep {x : Tally α} (hx : Capped pl x) (n : Nat) : Capped pl (Tally.rep x n) := by
  induction n with
  | zero => exact pure _
  | succ n ih => exact bind hx fun _ => bind ih fun _ => pure _

theorem each {f : α → Tally β} (hf : ∀ a, Capped pl (f a)) (l : List α) : Capped pl (Tally.each f l) := by
  induction l with
  | nil => exact pure _
  | cons a l ih => exact bind (hf a) fun _ => bind ih fun _ => pure _

theorem long_lt {pl : Plat} {s r : Bytes} {n : Int} (h : readLong pl s = .ok (n, r)) :
    n.toNat < pl.countLimit ∧ pl.longSize + r.length ≤ s.length := by
  refine ⟨?_, Eats.readLong pl s n r h⟩
  unfold readLong at h
  obtain ⟨bs, s', h1, h2⟩ := P.bind_ok.1 h
  rw [P.pure_ok] at h2
  obtain ⟨rfl, rfl⟩ := h2
  have hl := (readBytes_ok.1 h1).1
  have hk : pl.longSize = 1 ∨ pl.longSize = 2 ∨ pl.longSize = 4 ∨ pl.longSize = 8 := by
    unfold Plat.longSize; split <;> simp
  have := (toSigned_fits hk (pl.dec_lt hl)).1
  unfold fitsSigned at this
  simp only [Bool.and_eq_true, decide_eq_true_eq] at this
  unfold Plat.countLimit
  have h2 : (0 : Int) < 2 ^ (8 * pl.longSize - 1) := by positivity
  have h3 : ((2 ^ (8 * pl.longSize - 1) : Nat) : Int) = 2 ^ (8 * pl.longSize - 1) := by push_cast; rfl
  omega

theorem count : Capped pl (tallyCount pl) := by
  intro s
  unfold tallyCount
  rw [Tally.bind_run]
  unfold Tally.lift
  rcases h : readLong pl s with e | ⟨n, r⟩
  · simp [rest]
  · dsimp only
    obtain ⟨h1, h2⟩ := long_lt h
    show pl.longSize * (0 + (n.toNat + 0)) + pl.countLimit * r.length ≤ _
    calc pl.longSize * (0 + (n.toNat + 0)) + pl.countLimit * r.length
        ≤ pl.longSize * pl.countLimit + pl.countLimit * r.length :=
          Nat.add_le_add_right (Nat.mul_le_mul_left _ (by omega)) _
      _ = pl.countLimit * (pl.longSize + r.length) := by ring
      _ ≤ _ := Nat.mul_le_mul_left _ h2

theorem body (kind : Kind) : Capped pl (tallyBody (F := F) pl kind) := by
  have rig : Capped pl (tallyRig (F := F) pl) :=
    bind count fun _ => bind (rep (lift (Eats.loadBone pl)) _) fun _ => pure _
  have nodes : ∀ v, Capped pl (tallyLodNodes (F := F) pl v kind) := fun v =>
    bind (lift (Eats.readFloat3 pl)) fun _ => bind (lift (Eats.readFloat3 pl)) fun _ =>
    bind (lift (Eats.loadPivot pl v)) fun _ =>
      ite (bind count fun _ => bind (rep rig _) fun _ => pure _)
        (bind (lift (Eats.readLong pl)) fun _ => bind (lift (Eats.loadNodes pl kind _)) fun _ => pure _)
  have mats : ∀ v (l : Lod F), Capped pl (tallyLodMaterials pl v kind l) := fun v l =>
    bind count fun _ => bind (rep (lift (Eats.loadMat pl v kind)) _) fun _ => pure _
  exact bind (lift (Eats.loadHead pl)) fun _ => bind (lift Eats.readByte) fun _ => bind count fun _ =>
    bind (rep count _) fun _ => bind count fun _ => bind (rep (lift (Eats.loadVAttr pl)) _) fun _ =>
    bind (lift (Eats.readLong pl)) fun _ => bind (lift (Eats.readLong pl)) fun _ =>
    bind (lift (Eats.readLong pl)) fun _ => bind (lift (Eats.loadVertices pl _ _ _)) fun _ =>
    bind (lift (Eats.readLong pl)) fun _ =>
    bind (lift (Eats.readCount ((Eats.readShort1 pl).weaken (Nat.zero_le _)) _)) fun _ =>
    bind (lift (Eats.loadU2 pl kind)) fun _ =>
    bind (each (fun _ => bind (rep (nodes _) _) fun _ => pure _) _) fun _ =>
    bind (each (fun _ => bind (each (fun _ => mats _ _) _) fun _ => pure _) _) fun _ => pure _

end Capped

/-! ## Exactly, for a reader that does not raise -/

/-- What a reader that does not raise returned, how many objects it made and how many bytes it read. -/
def Tells {α : Type} (x : Tally α) (Q : α → Nat → Nat → Prop) : Prop :=
  ∀ s c a r, x s = (c, .ok (a, r)) → ∃ u, s.length = r.length + u ∧ Q a c u

namespace Tells
variable {α β : Type} {pl : Plat}

theorem pure {a : α} {Q : α → Nat → Nat → Prop} (h : Q a 0 0) : Tells (pure a) Q := by
  intro s c b r hr
  rw [Tally.pure_run] at hr
  cases hr
  exact ⟨0, rfl, h⟩

theorem bind {x : Tally α} {f : α → Tally β} {Q : α → Nat → Nat → Prop} {T : β → Nat → Nat → Prop}
    (hx : Tells x Q) (hf : ∀ a c u, Q a c u → Tells (f a) fun b c' u' => T b (c + c') (u + u')) :
    Tells (x >>= f) T := by
  intro s c b r h
  rw [Tally.bind_run] at h
  rcases hs : x s with ⟨n, e | ⟨a, r1⟩⟩
  · rw [hs] at h; cases h
  · rw [hs] at h
    obtain ⟨u, hu, hq⟩ := hx s n a r1 hs
    simp only [Prod.mk.injEq] at h
    obtain ⟨rfl, h2⟩ := h
    obtain ⟨u', hu', ht⟩ := hf a n u hq r1 _ b r (Prod.ext rfl h2)
    exact ⟨u + u', by omega, ht⟩

theorem lift {p : P α} {k : Nat} (h : Eats p k) : Tells (Tally.lift p) fun _ c u => c = 0 ∧ k ≤ u := by
  intro s c a r hr
  unfold Tally.lift at hr
  simp only [Prod.mk.injEq] at hr
  have := h s a r hr.2
  exact ⟨s.length - r.length, by omega, hr.1.symm, by omega⟩

theorem count : Tells (tallyCount pl) fun n c u => c = n.toNat ∧ pl.longSize ≤ u := by
  unfold tallyCount
  refine bind (lift (Eats.readLong pl)) fun n c u h => ?_
  refine bind (Q := fun _ c u => c = n.toNat ∧ u = 0) ?_ fun _ c' u' h' => pure ⟨by omega, by omega⟩
  intro s c a r hr
  cases hr
  exact ⟨0, rfl, rfl, rfl⟩

theorem rep {x : Tally α} {w v : α → Nat}
    (hx : Tells x fun a c u => c = w a ∧ pl.longSize * v a ≤ u) (n : Nat) :
    Tells (Tally.rep x n) fun l c u => l.length = n ∧ c = (l.map w).sum ∧ pl.longSize * (l.map v).sum ≤ u := by
  induction n with
  | zero => exact pure ⟨rfl, rfl, Nat.le_refl _⟩
  | succ n ih =>
    refine bind hx fun a c u h => bind ih fun l c' u' h' => pure ?_
    refine ⟨by simp [h'.1], ?_, ?_⟩
    · simp only [List.map_cons, List.sum_cons]; omega
    · simp only [List.map_cons, List.sum_cons, Nat.mul_add]; omega

theorem each {f : β → Tally α} {R : β → α → Prop} {w v : α → Nat}
    (hf : ∀ b, Tells (f b) fun a c u => R b a ∧ c = w a ∧ pl.longSize * v a ≤ u) (bs : List β) :
    Tells (Tally.each f bs) fun l c u =>
      List.Forall₂ R bs l ∧ c = (l.map w).sum ∧ pl.longSize * (l.map v).sum ≤ u := by
  induction bs with
  | nil => exact pure ⟨.nil, rfl, Nat.le_refl _⟩
  | cons b bs ih =>
    refine bind (hf b) fun a c u h => bind ih fun l c' u' h' => pure ?_
    refine ⟨.cons h.1 h'.1, ?_, ?_⟩
    · simp only [List.map_cons, List.sum_cons]; omega
    · simp only [List.map_cons, List.sum_cons, Nat.mul_add]; omega

/-- Only the count changes. -/
theorem mono {x : Tally α} {Q R : α → Nat → Nat → Prop} (h : Tells x Q) (hq : ∀ a c u, Q a c u → R a c u) :
    Tells x R := by
  intro s c a r hr
  obtain ⟨u, hu, ha⟩ := h s c a r hr
  exact ⟨u, hu, hq a c u ha⟩

end Tells

/-- Rigs and bones of a lod. -/
def Lod.rigObjects (l : Lod F) : Nat := l.rigs.length + (l.rigs.map fun r => r.bones.length).sum

theorem sum_const_zero {α : Type} (l : List α) : (l.map fun _ => 0).sum = 0 := by
  induction l with
  | nil => rfl
  | cons a l ih => simp

theorem sum_const_one {α : Type} (l : List α) : (l.map fun _ => 1).sum = l.length := by
  induction l with
  | nil => rfl
  | cons a l ih => simp only [List.map_cons, List.sum_cons, ih, List.length_cons]; omega

theorem sum_map_add {α : Type} (f g : α → Nat) (l : List α) :
    (l.map fun a => f a + g a).sum = (l.map f).sum + (l.map g).sum := by
  induction l with
  | nil => rfl
  | cons a l ih => simp only [List.map_cons, List.sum_cons, ih]; omega

theorem longSize_le (pl : Plat) : pl.longSize ≤ 8 := by unfold Plat.longSize; split <;> omega

open Tells in
theorem tells_rig (pl : Plat) : Tells (tallyRig (F := F) pl) fun r c u =>
    c = r.bones.length ∧ pl.longSize * (1 + r.bones.length) ≤ u := by
  unfold tallyRig
  refine bind count fun n c u h => ?_
  refine bind (rep (pl := pl) (w := fun _ => 0) (v := fun _ => 1)
    ((lift (Eats.loadBone pl)).mono fun a c u h => by omega) n.toNat) fun bones c' u' h' => pure ?_
  rw [sum_const_zero, sum_const_one] at h'
  dsimp only
  rw [Nat.mul_add]
  omega

open Tells in
theorem tells_nodes (pl : Plat) (v : Int) (kind : Kind) : Tells (tallyLodNodes (F := F) pl v kind) fun l c u =>
    c = l.rigObjects ∧ pl.longSize * (1 + l.rigObjects) ≤ u := by
  unfold tallyLodNodes
  refine bind (lift (Eats.readFloat3 pl)) fun _ c1 u1 h1 => bind (lift (Eats.readFloat3 pl)) fun _ c2 u2 h2 =>
    bind (lift (Eats.loadPivot pl v)) fun _ c3 u3 h3 => ?_
  split
  · refine bind count fun n c4 u4 h4 => ?_
    refine bind (rep (pl := pl) (w := fun r : Rig F => r.bones.length) (v := fun r => 1 + r.bones.length)
      (tells_rig pl) n.toNat) fun rigs c5 u5 h5 => pure ?_
    rw [sum_map_add, sum_const_one] at h5
    unfold Lod.rigObjects
    dsimp only
    rw [Nat.mul_add] at h5 ⊢
    rw [Nat.mul_add]
    omega
  · refine bind (lift (Eats.readLong pl)) fun n c4 u4 h4 => bind (lift (Eats.loadNodes pl kind _)) fun _ c5 u5 h5 =>
      pure ?_
    simp only [Lod.rigObjects, List.length_nil, List.map_nil, List.sum_nil]
    omega

open Tells in
theorem tells_mats (pl : Plat) (v : Int) (kind : Kind) (lod : Lod F) :
    Tells (tallyLodMaterials pl v kind lod) fun l c u =>
      l.rigs = lod.rigs ∧ c = l.materials.length ∧ pl.longSize * (1 + l.materials.length) ≤ u := by
  unfold tallyLodMaterials
  refine bind count fun n c u h => ?_
  refine bind (rep (pl := pl) (w := fun _ => 0) (v := fun _ => 1)
    ((lift (Eats.loadMat pl v kind)).mono fun a c u h => by omega) n.toNat) fun mats c' u' h' => pure ?_
  rw [sum_const_zero, sum_const_one] at h'
  refine ⟨rfl, ?_⟩
  dsimp only
  rw [Nat.mul_add]
  omega

/-- Rigs and bones of a geom. -/
def Geom.rigObjects (g : Geom F) : Nat := (g.lods.map Lod.rigObjects).sum
/-- Materials of a geom. -/
def Geom.matObjects (g : Geom F) : Nat := (g.lods.map fun l => l.materials.length).sum

omit [FCodec F] in
theorem Geom.objects_eq (g : Geom F) : g.objects = g.lods.length + g.rigObjects + g.matObjects := by
  unfold Geom.objects Geom.rigObjects Geom.matObjects
  rw [Nat.add_assoc, ← sum_map_add]
  rfl

open Tells in
theorem tells_geomNodes (pl : Plat) (v : Int) (kind : Kind) (n : Int) :
    Tells (tallyGeomNodes (F := F) pl v kind n) fun g c u =>
      g.lods.length = n.toNat ∧ c = g.rigObjects ∧ pl.longSize * (g.lods.length + g.rigObjects) ≤ u := by
  unfold tallyGeomNodes
  refine bind (rep (pl := pl) (tells_nodes pl v kind) n.toNat) fun lods c u h => pure ?_
  rw [sum_map_add, sum_const_one] at h
  exact ⟨h.1, h.2.1, h.2.2⟩

open Tells in
theorem tells_geomMats (pl : Plat) (v : Int) (kind : Kind) (g : Geom F) :
    Tells (tallyGeomMaterials pl v kind g) fun g' c u =>
      (g'.lods.length = g.lods.length ∧ g'.rigObjects = g.rigObjects) ∧ c = g'.matObjects ∧
        pl.longSize * g'.matObjects ≤ u := by
  unfold tallyGeomMaterials
  refine bind (each (pl := pl) (R := fun l l' : Lod F => l'.rigs = l.rigs)
    (w := fun l => l.materials.length) (v := fun l => l.materials.length)
    (fun l => (tells_mats pl v kind l).mono fun a c u h => ⟨h.1, h.2.1, ?_⟩) g.lods) fun lods c u h => pure ?_
  · rw [Nat.mul_add] at h; omega
  · refine ⟨⟨h.1.length_eq.symm, ?_⟩, h.2.1, h.2.2⟩
    have h1 := h.1
    unfold Geom.rigObjects
    dsimp only
    clear h
    generalize g.lods = ls at h1
    induction h1 with
    | nil => rfl
    | cons hh _ ih =>
      simp only [List.map_cons, List.sum_cons, ih]
      unfold Lod.rigObjects
      rw [hh]

theorem sum_of_forall {α β : Type} {f : α → Nat} {g : β → Nat} {l : List α} {r : List β}
    (h : List.Forall₂ (fun a b => g b = f a) l r) : (r.map g).sum = (l.map f).sum := by
  induction h with
  | nil => rfl
  | cons hh _ ih => simp only [List.map_cons, List.sum_cons, ih, hh]

open Tells in
theorem tells_body (pl : Plat) (kind : Kind) : Tells (tallyBody (F := F) pl kind) fun m c u =>
    c = m.objects ∧ pl.longSize * (m.objects + 11) + 1 ≤ u := by
  unfold tallyBody
  refine bind (lift (Eats.loadHead pl)) ?_; intro head c1 u1 h1
  refine bind (lift Eats.readByte) ?_; intro _ c2 u2 h2
  refine bind count ?_; intro geomnum c3 u3 h3
  refine bind (rep (pl := pl) (w := Int.toNat) (v := fun _ => 1) (count.mono fun _ _ _ h => by omega) _) ?_
  intro lodnums c4 u4 h4
  refine bind count ?_; intro attrnum c5 u5 h5
  refine bind (rep (pl := pl) (w := fun _ => 0) (v := fun _ => 1) ((lift (Eats.loadVAttr pl)).mono fun _ _ _ h => by
    have := longSize_le pl; omega) _) ?_
  intro vattrs c6 u6 h6
  refine bind (lift (Eats.readLong pl)) ?_; intro _ c7 u7 h7
  refine bind (lift (Eats.readLong pl)) ?_; intro _ c8 u8 h8
  refine bind (lift (Eats.readLong pl)) ?_; intro _ c9 u9 h9
  refine bind (lift (Eats.loadVertices pl _ _ _)) ?_; intro _ c10 u10 h10
  refine bind (lift (Eats.readLong pl)) ?_; intro _ c11 u11 h11
  refine bind (lift (Eats.readCount ((Eats.readShort1 pl).weaken (Nat.zero_le _)) _)) ?_; intro _ c12 u12 h12
  refine bind (lift (Eats.loadU2 pl kind)) ?_; intro _ c13 u13 h13
  refine bind (each (pl := pl) (tells_geomNodes pl head.version kind) _) ?_; intro geoms0 c14 u14 h14
  refine bind (each (pl := pl) (tells_geomMats pl head.version kind) _) ?_; intro geoms c15 u15 h15
  refine pure ?_
  rw [sum_const_one] at h4
  rw [sum_const_zero, sum_const_one] at h6
  rw [sum_map_add] at h14
  have e1 : geoms.length = geomnum.toNat := by
    rw [← h15.1.length_eq, ← h14.1.length_eq, h4.1]
  have e2 : (geoms.map fun g => g.lods.length).sum = (lodnums.map Int.toNat).sum := by
    rw [sum_of_forall (h15.1.imp fun _ _ h => h.1), sum_of_forall (h14.1.imp fun _ _ h => h)]
  have e3 : (geoms.map Geom.rigObjects).sum = (geoms0.map Geom.rigObjects).sum :=
    sum_of_forall (h15.1.imp fun _ _ h => h.2)
  have e4 : (geoms0.map fun g => g.lods.length).sum = (lodnums.map Int.toNat).sum :=
    sum_of_forall h14.1
  have e5 : (geoms.map Geom.objects).sum = (geoms.map fun g => g.lods.length).sum +
      (geoms.map Geom.rigObjects).sum + (geoms.map Geom.matObjects).sum := by
    rw [← sum_map_add, ← sum_map_add]
    exact congrArg List.sum (List.map_congr_left fun g _ => g.objects_eq)
  unfold Mesh.objects
  dsimp only
  rw [e5, e1, e2, e3]
  simp only [Nat.mul_add] at h14 ⊢
  rw [e4] at h14
  rw [h4.1] at h4
  have e6 := h6.1
  rw [e6] at h6 ⊢
  omega

end Bf2
