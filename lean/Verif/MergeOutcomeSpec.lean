import Verif.EditSpec

/-! # Specification for C124: where and why a merge stops -/

namespace Bf2

variable {F : Type}

/-- Index number `i` of material `b` in the array `l`, shifted by `n`, is `w`. -/
def ShiftsTo (l : List Int) (b : Mat F) (n : Int) (i : Nat) (w : Int) : Prop :=
  ∃ k v, Names l.length (b.istart + i) k ∧ l[k]? = some v ∧ w = v + n

/-- The indices of `b` before number `i` exist and, shifted by `n`, fit 16 bits. -/
def FitsBefore (l : List Int) (b : Mat F) (n : Int) (i : Nat) : Prop :=
  ∀ j < i, ∃ w, w ≤ 65535 ∧ ShiftsTo l b n j w

/-- Material `b` of `o` cannot be merged into a material `a`: the index array of `o` is a number, or
an index of `b` is not in it, or the shifted index needs more than 16 bits, whichever comes first. -/
inductive Fault (o : Mesh F) (a b : Mat F) : Err → Prop
  | oneIndex {v : Int} : o.index = .one v → 0 < b.inum → Fault o a b .typeError
  | missing {l : List Int} {i : Nat} : o.index = .many l → (i : Int) < b.inum →
      FitsBefore l b a.vnum i → (∀ k, ¬ Names l.length (b.istart + i) k) → Fault o a b .indexError
  | tooBig {l : List Int} {i : Nat} {w : Int} : o.index = .many l → (i : Int) < b.inum →
      FitsBefore l b a.vnum i → ShiftsTo l b a.vnum i w → 65535 < w → Fault o a b .overflowError

/-- The first `k` materials have the added counts and their new places, the others are as before. -/
structure NumbersUpTo (k : Nat) (as bs as' : List (Mat F)) : Prop where
  before : ∀ (i : Nat) (a b : Mat F), i < k → as[i]? = some a → bs[i]? = some b →
    as'[i]? = some { a with
      vnum := a.vnum + b.vnum, inum := a.inum + b.inum
      vstart := ((as.take i).map Mat.vnum).sum + ((bs.take i).map Mat.vnum).sum
      istart := ((as.take i).map Mat.inum).sum + ((bs.take i).map Mat.inum).sum }
  after : ∀ i : Nat, k ≤ i → as'[i]? = as[i]?

end Bf2
