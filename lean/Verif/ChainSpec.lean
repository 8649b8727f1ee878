import Verif.EditSpec

/-!
# Many meshes on top of each other

What the material at a place consists of after several meshes were merged into the first.
-/

namespace Bf2

variable {F : Type}

/-- The materials at place `i` of several meshes, each with its mesh. -/
def column (i : Nat) (ms : List (Mesh F)) : List (Mesh F × Mat F) :=
  ms.filterMap fun m => m.mats[i]?.map fun a => (m, a)

/-- How many vertices the materials have together. -/
def columnVerts (c : List (Mesh F × Mat F)) : Int := (c.map fun p => p.2.vnum).sum

/-- `l` is made of the indices of the materials one after the other, those of each moved up by the
number of vertices of all materials before it. -/
def StackedIndex (c : List (Mesh F × Mat F)) (l : List Int) : Prop :=
  ∃ parts : List (List Int), l = parts.flatten ∧ parts.length = c.length ∧
    ∀ (k : Nat) p, c[k]? = some p →
      parts[k]? = some ((indexData p.1 p.2).map (· + columnVerts (c.take k)))

/-- Some index of a material that is not the lowest of its column gets more than 16 bits. -/
def ChainOverflows (ms : List (Mesh F)) : Prop :=
  ∃ (i k : Nat) (p : Mesh F × Mat F) (v : Int), 0 < k ∧ (column i ms)[k]? = some p ∧
    v ∈ indexData p.1 p.2 ∧ 65535 < v + columnVerts ((column i ms).take k)

/-- `m` can be read: all its data exist and its index array is a tuple. -/
structure Readable (vs : Nat) (m : Mesh F) : Prop where
  inside : Inside vs m
  many : ∃ ix, m.index = .many ix

end Bf2
