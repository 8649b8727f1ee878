import Verif.OldTests
import Verif.OldMesh
import Verif.FloatCodec

/-!
# The skipped tests of `/repo/deprecated/tests_vismesh_edit.py` on a skinned mesh

Lines 151-329, on the mesh they load (twice, or with a deep copy), if the copy can be opened for writing.
Values as in `RepoTests`.
-/

namespace Bf2

/-- `for i, x in enumerate(xs): ... ys[i] ...` -/
def assertAgainst {α β : Type} (f : α → β → Except Err Bool) (xs : List α) (ys : List β) : Except Err Bool :=
  assertEach (fun p : Nat × α =>
    match ys[p.1]? with
    | none => .error .indexError
    | some y => f p.2 y) (numbered xs)

/-- One loop of assertions after another. -/
def assertBoth (r s : Except Err Bool) : Except Err Bool :=
  match r with
  | .ok true => s
  | r => r

/-- Lines 301-304 (and 184-187, 237-240): a rig; `eq` compares two matrices. -/
def assertRig (eq : Mat4 F64 → Mat4 F64 → Bool) (r o : Rig F64) : Except Err Bool :=
  thenAssert (r.bonenum = o.bonenum) <|
  assertAgainst (fun b c : Bone F64 => thenAssert (b.id = c.id) (.ok (eq b.matrix c.matrix))) r.bones o.bones

/-- Lines 316-321: the floats of a material, `new[s:s + n]` against `old[t], old[t + 1], ...`.  Two NaNs are
let pass. -/
def assertFloats (new old : List F64) (s t n : Int) : Except Err Bool :=
  assertEach (fun p : Nat × F64 =>
    match pyGet old (t + p.1) with
    | none => .error .indexError
    | some y => .ok ((p.2.isNaN && y.isNaN) || p.2.feq y)) (numbered (pySlice new s (s + n)))

/-- Lines 324-328. -/
def assertIndex (new old : List Int) (s t n : Int) : Except Err Bool :=
  assertEach (fun p : Nat × Int =>
    match pyGet old (t + p.1) with
    | none => .error .indexError
    | some y => .ok (decide (p.2 = y))) (numbered (pySlice new s (s + n)))

/-- Lines 306-328: a material of the mesh `m` against one of the mesh `old`. -/
def assertReversedMat (m old : OldMesh F64) (a b : Mat F64) : Except Err Bool :=
  thenAssert (a.vnum = b.vnum) <|
  thenAssert (a.inum = b.inum) <|
  thenAssert (a.vstart = b.vstart) <|
  thenAssert (a.istart = b.istart) <|
  if m.vertformat = 0 then .error .zeroDivisionError
  else
    assertBoth (assertFloats m.vertices old.vertices (intDivMul m.vertstride m.vertformat a.vstart)
        (intDivMul m.vertstride m.vertformat b.vstart) (intDivMul m.vertstride m.vertformat a.vnum))
      (assertIndex m.index old.index a.istart b.istart a.inum)

/-- Lines 292-328: a lod. -/
def assertReversedLod (m old : OldMesh F64) (l k : OldLod F64) : Except Err Bool :=
  thenAssert (l.rignum = k.rignum) <|
  thenAssert (l.rigs.length = k.rigs.length) <|
  assertBoth (assertAgainst (assertRig mat4Eq) l.rigs k.rigs)
    (assertAgainst (assertReversedMat m old) l.materials k.materials)

/-- Lines 285-328: all geoms, against those of the old mesh from behind. -/
def assertReversed (m old : OldMesh F64) : Except Err Bool :=
  assertEach (fun p : Nat × OldGeom F64 =>
    match pyGet old.geoms ((m.geoms.length : Int) - p.1 - 1) with
    | none => .error .indexError
    | some h =>
      thenAssert (p.2.lodnum = h.lodnum) <|
      thenAssert (p.2.lods.length = h.lods.length) <|
      assertAgainst (assertReversedLod m old) p.2.lods h.lods) (numbered m.geoms)

/-- `test_can_edit_geoms_order`, lines 267-328. -/
def editOrderTest (pl : Plat) (m : OldMesh F64) : Except Err Bool :=
  if !m.kind.isSkinned then .ok false
  else
    match orderGeomsBy m (((List.range m.geomnum.toNat).map Int.ofNat).reverse) with
    | (_, some e) => .error e
    | (m', none) =>
      match (oldSave pl m').err with
      | some e => .error e
      | none => assertReversed m' m

/-- Lines 182-192: a lod.  Of a deep copy the floats are the same objects, which `==` of lists and tuples finds
equal whatever they are. -/
def assertCopiedLod (l k : OldLod F64) : Except Err Bool :=
  thenAssert (l.rignum = k.rignum) <|
  assertBoth (assertAgainst (assertRig fun a b => decide (a = b)) l.rigs k.rigs) <|
  assertAgainst (fun a b : Mat F64 =>
    thenAssert (a.vnum = b.vnum) <|
    thenAssert (a.vstart = b.vstart) <|
    thenAssert (a.inum = b.inum) <|
    .ok (decide (a.istart = b.istart))) l.materials k.materials

/-- `test_can_copy_geom_by_ref`, lines 158-192.  A `raise` alone is a `RuntimeError`. -/
def copyGeomTest (pl : Plat) (m : OldMesh F64) : Except Err Bool :=
  if !m.kind.isSkinned then .error .runtimeError
  else
    match copyGeomId m 0 1 with
    | (_, some e) => .error e
    | (m', none) =>
      match (oldSave pl m').err with
      | some e => .error e
      | none =>
        thenAssert (m'.geomnum = m.geomnum + 1) <|
        thenAssert (m'.geoms.length = m.geoms.length + 1) <|
        match m'.geoms[1]?, m.geoms[0]? with
        | some g, some h =>
          thenAssert (g.lodnum = h.lodnum) <|
          assertAgainst assertCopiedLod g.lods h.lods
        | _, _ => .error .indexError

/-- `test_can_delete_geom`, lines 194-264.  `asserts` are the assertions, lines 222-264. -/
def deleteGeomTest (pl : Plat) (asserts : OldMesh F64 → Except Err Bool) (m : OldMesh F64) : Except Err Bool :=
  if !m.kind.isSkinned then .ok false
  else
    match m.geoms[1]? with
    | none => .error .indexError
    | some g =>
      match g.lods.head?.bind fun l => l.materials.head? with
      | none => .error .indexError
      | some _ =>
        match deleteGeomId m 1 with
        | (_, some e) => .error e
        | (m', none) =>
          match (oldSave pl m').err with
          | some e => .error e
          | none => asserts m'

end Bf2
