/-!
# Python runtime pieces

Everything the model of `/repo/bf2mesh` needs from Python itself: exceptions as values, file reads
(`P`), file writes (`Out`), slicing and indexing, and loops that mutate list elements and may raise
half-way (`trav`).
-/

namespace Bf2

/-- The exception classes the modelled code can raise. -/
inductive Err
  | structError
  | typeError
  | valueError
  | attributeError
  | indexError
  | zeroDivisionError
  | overflowError
  | unboundLocalError
  | fileNotFoundError
  | fileExistsError
  | notADirectoryError
  | isADirectoryError
  | keyError
  | notImplementedError
  | nameError
  | runtimeError
  deriving DecidableEq, Repr

/-- Bytes of a file. -/
abbrev Bytes := List UInt8

/-- A computation reading a binary file object: it takes the bytes not read yet and either raises
or returns a value and the bytes left.  (`fo.read`, used all over `bf2mesh/io.py`.) -/
def P (α : Type) := Bytes → Except Err (α × Bytes)

namespace P
variable {α β : Type}

protected def pure (a : α) : P α := fun s => .ok (a, s)

protected def bind (p : P α) (f : α → P β) : P β := fun s =>
  match p s with
  | .ok (a, s') => f a s'
  | .error e => .error e

instance : Monad P where
  pure := P.pure
  bind := P.bind

/-- `raise e` -/
def raise (e : Err) : P α := fun _ => .error e

theorem pure_run (a : α) (s : Bytes) : (pure a : P α) s = .ok (a, s) := rfl

theorem bind_run (p : P α) (f : α → P β) (s : Bytes) :
    (p >>= f) s = match p s with
      | .ok (a, s') => f a s'
      | .error e => .error e := rfl

theorem map_run (p : P α) (f : α → β) (s : Bytes) :
    (f <$> p) s = match p s with
      | .ok (a, s') => .ok (f a, s')
      | .error e => .error e := rfl

theorem raise_run (e : Err) (s : Bytes) : (raise e : P α) s = .error e := rfl

theorem bind_ok {p : P α} {f : α → P β} {s : Bytes} {b : β} {r : Bytes} :
    (p >>= f) s = .ok (b, r) ↔ ∃ a s', p s = .ok (a, s') ∧ f a s' = .ok (b, r) := by
  rw [bind_run]
  constructor
  · intro h
    split at h
    · exact ⟨_, _, by assumption, h⟩
    · cases h
  · rintro ⟨a, s', h1, h2⟩
    rw [h1]; exact h2

theorem pure_ok {a b : α} {s r : Bytes} : (pure a : P α) s = .ok (b, r) ↔ a = b ∧ s = r := by
  rw [pure_run]; simp

theorem map_ok {p : P α} {f : α → β} {s : Bytes} {b : β} {r : Bytes} :
    (f <$> p) s = .ok (b, r) ↔ ∃ a, p s = .ok (a, r) ∧ f a = b := by
  rw [map_run]
  constructor
  · intro h
    split at h
    · cases h; exact ⟨_, by assumption, rfl⟩
    · cases h
  · rintro ⟨a, h1, rfl⟩
    rw [h1]

instance : LawfulMonad P := LawfulMonad.mk'
  (id_map := fun x => by
    funext s; rw [map_run]; split <;> rename_i h <;> rw [h] <;> rfl)
  (pure_bind := fun _ _ => rfl)
  (bind_assoc := fun x f g => by
    funext s; simp only [bind_run]; cases x s <;> rfl)
  (bind_pure_comp := fun f x => rfl)

/-- `[p() for i in range(n)]`, or a loop calling a reader `n` times. -/
def rep (p : P α) : Nat → P (List α)
  | 0 => pure []
  | n + 1 => do
    let a ← p
    let as ← rep p n
    pure (a :: as)

/-- `[f(x) for x in xs]` with `f` reading from the file. -/
def each (f : α → P β) : List α → P (List β)
  | [] => pure []
  | a :: as => do
    let b ← f a
    let bs ← each f as
    pure (b :: bs)

end P

/-- The effect of a piece of code that only writes to a file object and may raise: what reached the
file, and the exception if there was one. -/
structure Out where
  bytes : Bytes
  err : Option Err
  deriving DecidableEq, Repr

namespace Out

/-- No statement at all. -/
def nil : Out := ⟨[], none⟩
/-- `fo.write(bs)` -/
def write (bs : Bytes) : Out := ⟨bs, none⟩
/-- `raise e` -/
def raise (e : Err) : Out := ⟨[], some e⟩

/-- `a; b`: when `a` raises, `b` does not run. -/
def seq (a b : Out) : Out :=
  match a.err with
  | some e => ⟨a.bytes, some e⟩
  | none => ⟨a.bytes ++ b.bytes, b.err⟩

/-- `for x in xs: f(x)` -/
def each {α : Type} (f : α → Out) : List α → Out
  | [] => nil
  | a :: as => (f a).seq (each f as)

/-- A block of statements. -/
def all : List Out → Out
  | [] => nil
  | a :: as => a.seq (all as)

end Out

/-- How Python turns a slice bound into a position of a list of length `n`. -/
def clamp (n : Nat) (i : Int) : Nat :=
  if i < 0 then (n + i).toNat else min i.toNat n

/-- `l[a:b]` -/
def pySlice {α : Type} (l : List α) (a b : Int) : List α :=
  (l.drop (clamp l.length a)).take (clamp l.length b - clamp l.length a)

/-- `l[a:b] = new` -/
def pySliceSet {α : Type} (l : List α) (a b : Int) (new : List α) : List α :=
  l.take (clamp l.length a) ++ new ++ l.drop (max (clamp l.length a) (clamp l.length b))

/-- The position `l[i]` denotes in a list of length `n`, `none` for `IndexError`. -/
def pyPos (n : Nat) (i : Int) : Option Nat :=
  let j := if i < 0 then i + n else i
  if 0 ≤ j ∧ j < n then some j.toNat else none

/-- `l[i]` -/
def pyGet {α : Type} (l : List α) (i : Int) : Option α :=
  match pyPos l.length i with
  | some j => l[j]?
  | none => none

/-- A loop `for a in as: f(a)` where `f` mutates its element and a state, and may raise.  After an
exception the remaining elements are as they were. -/
def trav {σ α : Type} (f : σ → α → σ × α × Option Err) : σ → List α → σ × List α × Option Err
  | s, [] => (s, [], none)
  | s, a :: as =>
    match f s a with
    | (s', a', some e) => (s', a' :: as, some e)
    | (s', a', none) =>
      match trav f s' as with
      | (s'', as', e) => (s'', a' :: as', e)

end Bf2
