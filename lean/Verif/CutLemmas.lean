import Verif.ColLemmas
import Verif.CutSpec
import Verif.OldLemmas

/-!
# Readers and what follows the part they read

A reader of a file reads from the front.  Bytes after the part it read make no difference, to what it returns
or to what it raises, except that `struct.error` may come from the end of the file.
-/

namespace Bf2

/-- What `p` does on `s` it does on every longer file, unless it ran out of bytes. -/
structure Stays {α : Type} (p : P α) : Prop where
  ok : ∀ s a r, p s = .ok (a, r) → ∀ x, p (s ++ x) = .ok (a, r ++ x)
  err : ∀ s e, p s = .error e → e ≠ .structError → ∀ x, p (s ++ x) = .error e

namespace Stays
variable {α β σ : Type}

theorem pure (a : α) : Stays (pure a : P α) where
  ok s b r h x := by
    rw [P.pure_ok] at h
    obtain ⟨rfl, rfl⟩ := h
    rfl
  err s e h := by cases h

theorem raise (e : Err) : Stays (P.raise e : P α) where
  ok s b r h := by cases h
  err s e' h _ x := h

theorem bind {p : P α} {f : α → P β} (hp : Stays p) (hf : ∀ a, Stays (f a)) : Stays (p >>= f) where
  ok s b r h x := by
    obtain ⟨a, s', h1, h2⟩ := P.bind_ok.1 h
    rw [P.bind_run, hp.ok _ _ _ h1]
    exact (hf a).ok _ _ _ h2 x
  err s e h other x := by
    rw [P.bind_run] at h ⊢
    rcases h1 : p s with e' | ⟨a, s'⟩
    · rw [h1] at h
      cases h
      rw [hp.err _ _ h1 other]
    · rw [h1] at h
      rw [hp.ok _ _ _ h1]
      exact (hf a).err _ _ h other x

theorem rep {p : P α} (hp : Stays p) (n : Nat) : Stays (P.rep p n) := by
  induction n with
  | zero => exact pure _
  | succ n ih => exact bind hp fun _ => bind ih fun _ => pure _

theorem each {f : α → P β} (hf : ∀ a, Stays (f a)) (l : List α) : Stays (P.each f l) := by
  induction l with
  | nil => exact pure _
  | cons a l ih => exact bind (hf a) fun _ => bind ih fun _ => pure _

theorem scan {f : σ → α → P (σ × β)} (hf : ∀ s a, Stays (f s a)) (l : List α) :
    ∀ s, Stays (P.scan f s l) := by
  induction l with
  | nil => exact fun _ => pure _
  | cons a l ih => exact fun s => bind (hf s a) fun _ => bind (ih _) fun _ => pure _

theorem readBytes (n : Nat) : Stays (readBytes n) where
  ok s a r h x := by
    unfold Bf2.readBytes at *
    split at h
    · rename_i hn
      simp only [Except.ok.injEq, Prod.mk.injEq] at h
      obtain ⟨rfl, rfl⟩ := h
      rw [if_pos (by simp; omega), List.take_append_of_le_length hn, List.drop_append_of_le_length hn]
    · cases h
  err s e h other := by
    unfold Bf2.readBytes at h
    split at h
    · cases h
    · cases h
      exact absurd rfl other

theorem ite {c : Prop} [Decidable c] {p q : P α} (hp : Stays p) (hq : Stays q) :
    Stays (if c then p else q) := by split <;> assumption

theorem readLong (pl : Plat) : Stays (readLong pl) := bind (readBytes _) fun _ => pure _
theorem readShort1 (pl : Plat) : Stays (readShort1 pl) := bind (readBytes _) fun _ => pure _
theorem readByte : Stays readByte := bind (readBytes _) fun _ => pure _
theorem readSShort (pl : Plat) : Stays (readSShort pl) := bind (readBytes _) fun _ => pure _
theorem readSignedShort (pl : Plat) : Stays (readSignedShort pl) := bind (readBytes _) fun _ => pure _

theorem readString (pl : Plat) : Stays (readString pl) :=
  bind (readLong pl) fun _ => ite (raise _) (readBytes _)

theorem readTuple {p : P α} (hp : Stays p) (n : Int) : Stays (readTuple p n) := ite (raise _) (rep hp _)

variable {F : Type} [FCodec F]

theorem readFloat1 (pl : Plat) : Stays (readFloat1 (F := F) pl) :=
  bind (readBytes _) fun _ => pure _

theorem readFloat3 (pl : Plat) : Stays (readFloat3 (F := F) pl) :=
  bind (readFloat1 pl) fun _ => bind (readFloat1 pl) fun _ => bind (readFloat1 pl) fun _ => pure _

theorem readFloat4 (pl : Plat) : Stays (readFloat4 (F := F) pl) :=
  bind (readFloat1 pl) fun _ => bind (readFloat1 pl) fun _ => bind (readFloat1 pl) fun _ =>
    bind (readFloat1 pl) fun _ => pure _

theorem readMatrix4 (pl : Plat) : Stays (readMatrix4 (F := F) pl) :=
  bind (readFloat4 pl) fun _ => bind (readFloat4 pl) fun _ => bind (readFloat4 pl) fun _ =>
    bind (readFloat4 pl) fun _ => pure _

theorem loadHead (pl : Plat) : Stays (loadHead pl) :=
  bind (readLong pl) fun _ => bind (readLong pl) fun _ => bind (readLong pl) fun _ =>
    bind (readLong pl) fun _ => bind (readLong pl) fun _ => pure _

theorem oldLoadVAttr (pl : Plat) : Stays (oldLoadVAttr pl) :=
  bind (readSignedShort pl) fun _ => bind (readSignedShort pl) fun _ =>
    bind (readSignedShort pl) fun _ => bind (readSignedShort pl) fun _ => pure _

theorem oldLoadVertices (pl : Plat) (a b c : Int) : Stays (oldLoadVertices (F := F) pl a b c) := by
  unfold Bf2.oldLoadVertices
  split
  · exact raise _
  · exact readTuple (readFloat1 pl) _

theorem loadRig (pl : Plat) : Stays (loadRig (F := F) pl) :=
  bind (readLong pl) fun _ =>
    bind (rep (bind (readLong pl) fun _ => bind (readMatrix4 pl) fun _ => pure _) _) fun _ => pure _

theorem oldLoadLodNodes (pl : Plat) (v : Int) (k : Kind) : Stays (oldLoadLodNodes (F := F) pl v k) :=
  bind (readFloat3 pl) fun _ => bind (readFloat3 pl) fun _ =>
    bind (ite (bind (readFloat3 pl) fun _ => pure _) (pure _)) fun _ =>
      ite (bind (readLong pl) fun _ => bind (rep (loadRig pl) _) fun _ => pure _)
        (bind (readLong pl) fun _ =>
          bind (ite (pure _) (bind (rep (readMatrix4 pl) _) fun _ => pure _)) fun _ => pure _)

theorem loadMat (pl : Plat) (v : Int) (k : Kind) : Stays (loadMat (F := F) pl v k) :=
  bind (ite (pure _) (bind (readLong pl) fun _ => pure _)) fun _ =>
  bind (readString pl) fun _ => bind (readString pl) fun _ => bind (readLong pl) fun _ =>
  bind (rep (readString pl) _) fun _ => bind (readLong pl) fun _ => bind (readLong pl) fun _ =>
  bind (readLong pl) fun _ => bind (readLong pl) fun _ => bind (readLong pl) fun _ =>
  bind (readLong pl) fun _ =>
    ite (bind (readFloat3 pl) fun _ => bind (readFloat3 pl) fun _ => pure _) (pure _)

theorem oldLoadLodMaterials (pl : Plat) (v : Int) (k : Kind) (last : Option Int) (l : OldLod F) :
    Stays (oldLoadLodMaterials pl v k last l) := by
  unfold Bf2.oldLoadLodMaterials
  refine bind (readLong pl) fun _ => bind (rep (loadMat pl _ _) _) fun _ => ?_
  dsimp only
  split
  · exact raise _
  · exact pure _

theorem oldLoadGeomMaterials (pl : Plat) (v : Int) (k : Kind) (last : Option Int) (g : OldGeom F) :
    Stays (oldLoadGeomMaterials pl v k last g) :=
  bind (scan (oldLoadLodMaterials pl v k) _ _) fun _ => pure _

theorem oldLoadBody (pl : Plat) (k : Kind) : Stays (oldLoadBody (F := F) pl k) :=
  bind (loadHead pl) fun _ => bind readByte fun _ => bind (readLong pl) fun _ =>
  bind (rep (readLong pl) _) fun _ => bind (readLong pl) fun _ => bind (rep (oldLoadVAttr pl) _) fun _ =>
  bind (readLong pl) fun _ => bind (readLong pl) fun _ => bind (readLong pl) fun _ =>
  bind (oldLoadVertices pl _ _ _) fun _ => bind (readLong pl) fun _ =>
  bind (readTuple (readShort1 pl) _) fun _ => bind (ite (pure _) (readLong pl)) fun _ =>
  bind (each (fun _ => bind (rep (oldLoadLodNodes pl _ _) _) fun _ => pure _) _) fun _ =>
  bind (scan (oldLoadGeomMaterials pl _ _) _ _) fun _ => pure _

theorem readCounted (pl : Plat) {p : P α} (hp : Stays p) : Stays (readCounted pl p) :=
  bind (readLong _) fun _ => bind (rep hp _) fun _ => pure _

theorem readLod (pl : Plat) (v : Int) : Stays (readLod (F := F) pl v) :=
  bind (ite (bind (readLong _) fun _ => ite (pure _) (raise _)) (pure _)) fun _ =>
  bind (readCounted pl (bind (readSShort _) fun _ => bind (readSShort _) fun _ =>
    bind (readSShort _) fun _ => bind (readSShort _) fun _ => pure _)) fun _ =>
  bind (bind (readLong _) fun _ => bind (rep (readFloat3 _) _) fun _ =>
    bind (rep (readSShort _) _) fun _ => pure _) fun _ =>
  bind (bind (readFloat3 _) fun _ => bind (readFloat3 _) fun _ => bind readByte fun _ =>
    bind (readFloat3 _) fun _ => bind (readFloat3 _) fun _ => pure _) fun _ =>
  bind (readCounted pl (bind (readFloat1 _) fun _ => bind (readSShort _) fun _ =>
    bind (readSShort _) fun _ => bind (readLong _) fun _ => bind (readLong _) fun _ => pure _))
    fun _ =>
  bind (readCounted pl (readSShort _)) fun _ =>
  bind (ite (readCounted pl (readLong _)) (pure _)) fun _ => pure _

theorem readCol (pl : Plat) : Stays (readCol (F := F) pl) :=
  bind (readLong _) fun _ => bind (readLong _) fun v => bind (readLong _) fun _ =>
  bind (rep (bind (readLong _) fun _ => bind (rep (bind (readLong _) fun _ =>
    bind (rep (readLod pl v) _) fun _ => pure _) _) fun _ => pure _) _) fun _ => pure _

end Stays

section
variable {F : Type} [FCodec F]

theorem oldLoad_stays_ok {pl : Plat} {k : Kind} {s : Bytes} {o : OldMesh F} (h : oldLoad pl k s = .ok o)
    (x : Bytes) : oldLoad pl k (s ++ x) = .ok o := by
  unfold oldLoad at *
  rcases hb : oldLoadBody (F := F) pl k s with e | ⟨o', r⟩
  · rw [hb] at h; cases h
  · rw [hb] at h
    rw [(Stays.oldLoadBody pl k).ok _ _ _ hb]
    exact h

theorem oldLoad_stays_err {pl : Plat} {k : Kind} {s : Bytes} {e : Err}
    (h : oldLoad (F := F) pl k s = .error e) (other : e ≠ .structError) (x : Bytes) :
    oldLoad (F := F) pl k (s ++ x) = .error e := by
  unfold oldLoad at *
  rcases hb : oldLoadBody (F := F) pl k s with e' | ⟨o', r⟩
  · rw [hb] at h
    cases h
    rw [(Stays.oldLoadBody pl k).err _ _ hb other]
  · rw [hb] at h; cases h

theorem loadCol_stays_ok {pl : Plat} {s : Bytes} {m : ColMesh F ColFace} (h : loadCol pl s = .ok m)
    (x : Bytes) : loadCol pl (s ++ x) = .ok m := by
  unfold loadCol at *
  rcases hb : readCol (F := F) pl s with e | ⟨o', r⟩
  · rw [hb] at h; cases h
  · rw [hb] at h
    rw [(Stays.readCol pl).ok _ _ _ hb]
    exact h

theorem loadCol_stays_err {pl : Plat} {s : Bytes} {e : Err}
    (h : loadCol (F := F) pl s = .error e) (other : e ≠ .structError) (x : Bytes) :
    loadCol (F := F) pl (s ++ x) = .error e := by
  unfold loadCol at *
  rcases hb : readCol (F := F) pl s with e' | ⟨o', r⟩
  · rw [hb] at h
    cases h
    rw [(Stays.readCol pl).err _ _ hb other]
  · rw [hb] at h; cases h

end

theorem Stopped.tail {w : Out} {part : Bytes} (h : Stopped w part) :
    ∃ tail, w.bytes = part ++ tail ∧ (tail = [] → w.err ≠ none) := by
  obtain ⟨⟨tail, ht⟩, h2⟩ := h
  refine ⟨tail, ht.symm, fun h0 => h2 ?_⟩
  rw [← ht, h0, List.append_nil]

/-- The first `n` bytes of what a save writes. -/
theorem Stopped.take {w : Out} {n : Nat} (h : n < w.bytes.length) : Stopped w (w.bytes.take n) := by
  refine ⟨List.take_prefix _ _, fun he => ?_⟩
  have := congrArg List.length he
  rw [List.length_take] at this
  omega

end Bf2
