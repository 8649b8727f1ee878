import Verif.Mesh

/-!
# How many objects the loader makes

The loader makes lists of geoms, lods, attributes, rigs, bones and materials as long as a count it has just
read says, and only then reads what belongs into them.  `loadTally` is `load` with a count of these objects.
The final `tell()` check makes none.
-/

namespace Bf2

/-- A reader that also says how many objects it made, whether it raised or not. -/
def Tally (α : Type) := Bytes → Nat × Except Err (α × Bytes)

namespace Tally
variable {α β : Type}

/-- Objects made first, then those made by what follows. -/
def bind (x : Tally α) (f : α → Tally β) : Tally β := fun s =>
  match x s with
  | (n, .error e) => (n, .error e)
  | (n, .ok (a, r)) =>
    match f a r with
    | (k, res) => (n + k, res)

instance : Monad Tally where
  pure a := fun s => (0, .ok (a, s))
  bind := bind

/-- A reader that makes none of the objects. -/
def lift (p : P α) : Tally α := fun s => (0, p s)

/-- `[Class() for i in range(n)]` -/
def make (n : Nat) : Tally Unit := fun s => (n, .ok ((), s))

/-- A loop over objects made before. -/
def rep (x : Tally α) : Nat → Tally (List α)
  | 0 => pure []
  | n + 1 => do
    let a ← x
    let as ← rep x n
    pure (a :: as)

/-- A loop over objects made before. -/
def each (f : α → Tally β) : List α → Tally (List β)
  | [] => pure []
  | a :: as => do
    let b ← f a
    let bs ← each f as
    pure (b :: bs)

end Tally

/-- A count and that many new objects: `visiblemesh.py:129-134`, `140-145`, `776-777`, `863-866`, `894-896`,
`923-925`. -/
def tallyCount (pl : Plat) : Tally Int := do
  let n ← Tally.lift (readLong pl)
  Tally.make n.toNat
  pure n

variable {F : Type} [FCodec F]

/-- `visiblemesh.py:922-928` -/
def tallyRig (pl : Plat) : Tally (Rig F) := do
  let bonenum ← tallyCount pl
  let bones ← Tally.rep (.lift (loadBone pl)) bonenum.toNat
  pure ⟨bonenum, bones⟩

/-- `visiblemesh.py:852-874` -/
def tallyLodNodes (pl : Plat) (version : Int) (kind : Kind) : Tally (Lod F) := do
  let min ← Tally.lift (readFloat3 pl)
  let max ← Tally.lift (readFloat3 pl)
  let pivot ← Tally.lift (loadPivot pl version)
  if kind.isSkinned then do
    let rignum ← tallyCount pl
    let rigs ← Tally.rep (tallyRig pl) rignum.toNat
    pure ⟨min, max, pivot, rignum, rigs, 0, [], 0, []⟩
  else do
    let nodenum ← Tally.lift (readLong pl)
    let nodes ← Tally.lift (loadNodes pl kind nodenum)
    pure ⟨min, max, pivot, 0, [], nodenum, nodes, 0, []⟩

/-- `visiblemesh.py:893-899` -/
def tallyLodMaterials (pl : Plat) (version : Int) (kind : Kind) (lod : Lod F) : Tally (Lod F) := do
  let matnum ← tallyCount pl
  let materials ← Tally.rep (.lift (loadMat pl version kind)) matnum.toNat
  pure { lod with matnum := matnum, materials := materials }

/-- `visiblemesh.py:186-190`; the lods were made with the geom table. -/
def tallyGeomNodes (pl : Plat) (version : Int) (kind : Kind) (lodnum : Int) : Tally (Geom F) := do
  let lods ← Tally.rep (tallyLodNodes pl version kind) lodnum.toNat
  pure ⟨lodnum, lods⟩

/-- `visiblemesh.py:195-199` -/
def tallyGeomMaterials (pl : Plat) (version : Int) (kind : Kind) (geom : Geom F) : Tally (Geom F) := do
  let lods ← Tally.each (tallyLodMaterials pl version kind) geom.lods
  pure { geom with lods := lods }

/-- `visiblemesh.py:95-110` -/
def tallyBody (pl : Plat) (kind : Kind) : Tally (Mesh F) := do
  let head ← Tally.lift (loadHead pl)
  let u1 ← Tally.lift readByte
  let geomnum ← tallyCount pl
  let lodnums ← Tally.rep (tallyCount pl) geomnum.toNat
  let vertattribnum ← tallyCount pl
  let vattrs ← Tally.rep (.lift (loadVAttr pl)) vertattribnum.toNat
  let vertformat ← Tally.lift (readLong pl)
  let vertstride ← Tally.lift (readLong pl)
  let vertnum ← Tally.lift (readLong pl)
  let vertices ← Tally.lift (loadVertices pl vertstride vertformat vertnum)
  let indexnum ← Tally.lift (readLong pl)
  let index ← Tally.lift (readShort pl indexnum)
  let u2 ← Tally.lift (loadU2 pl kind)
  let geoms0 ← Tally.each (tallyGeomNodes pl head.version kind) lodnums
  let geoms ← Tally.each (tallyGeomMaterials pl head.version kind) geoms0
  pure { kind, head, u1, geomnum, geoms, vertattribnum, vattrs, vertformat, vertstride, vertnum,
         vertices, indexnum, index, u2 }

/-- `visiblemesh.py:95-117`: the objects made, and the result of `load`. -/
def loadTally (F : Type) [FCodec F] (pl : Plat) (kind : Kind) (file : Bytes) : Nat × Except Err (Mesh F) :=
  match tallyBody (F := F) pl kind file with
  | (n, .error e) => (n, .error e)
  | (n, .ok (m, [])) => (n, .ok m)
  | (n, .ok (_, _ :: _)) => (n, .error .attributeError)

end Bf2
