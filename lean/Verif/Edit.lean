import Verif.Mesh

/-!
# Model of the editing methods of `/repo/bf2mesh/visiblemesh.py`

Every method returns the mesh as it is afterwards together with the exception raised, if any, so
what a failing method leaves behind is part of the model.

`logging.debug` calls are modelled where evaluating their arguments can raise.  Offsets and angles
are floats (the code would also take ints).
-/

namespace Bf2

/-- Arithmetic on Python floats. -/
class FArith (F : Type) where
  /-- `0.0` -/
  zero : F
  add : F → F → F
  sub : F → F → F
  mul : F → F → F
  /-- `x / 2` -/
  half : F → F
  /-- `x < y` -/
  lt : F → F → Bool

instance : FArith F64 := ⟨F64.zero, F64.add, F64.sub, F64.mul, F64.half, F64.lt'⟩

/-- The functions imported from `math` (`visiblemesh.py:3`); `none` is `ValueError` (infinite
argument). -/
class Libm (F : Type) where
  radians : F → F
  sin : F → Option F
  cos : F → Option F

/-! ## Loops that build a list -/

/-- `for x in xs: out.extend(f(x))`, where `f` may raise. -/
def flatMapE {α β : Type} (f : α → Except Err (List β)) : List α → Except Err (List β)
  | [] => .ok []
  | a :: as =>
    match f a with
    | .error e => .error e
    | .ok l =>
      match flatMapE f as with
      | .error e => .error e
      | .ok r => .ok (l ++ r)

/-- `for x in xs: s = f(s, x)`, where `f` may raise. -/
def foldE {σ α : Type} (f : σ → α → Except Err σ) : σ → List α → Except Err σ
  | s, [] => .ok s
  | s, a :: as =>
    match f s a with
    | .error e => .error e
    | .ok s' => foldE f s' as

/-- `for i, x in enumerate(xs): if not f(x, ys[i]): return False`, then `True`. -/
def all2 {α β : Type} (f : α → β → Except Err Bool) : List α → List β → Except Err Bool
  | [], _ => .ok true
  | _ :: _, [] => .error .indexError
  | a :: as, b :: bs =>
    match f a b with
    | .error e => .error e
    | .ok false => .ok false
    | .ok true => all2 f as bs

/-- `trav` with `enumerate` and `ys[i]`. -/
def trav2 {σ α β : Type} (f : σ → α → β → σ × α × Option Err) :
    σ → List α → List β → σ × List α × Option Err
  | s, [], _ => (s, [], none)
  | s, a :: as, [] => (s, a :: as, some .indexError)
  | s, a :: as, b :: bs =>
    match f s a b with
    | (s', a', some e) => (s', a' :: as, some e)
    | (s', a', none) =>
      match trav2 f s' as bs with
      | (s'', as', e) => (s'', a' :: as', e)

/-! ## Vertex declarations -/

/-- `len(D3DDECLTYPE(t))`, `bf2types.py:8-30`: unknown values are a `ValueError`. -/
def declLen (t : Int) : Except Err Nat :=
  if t = 0 then .ok 1
  else if t = 1 then .ok 2
  else if t = 2 then .ok 3
  else if t = 3 then .ok 4
  else if t = 4 then .ok 1
  else if t = 17 then .ok 0
  else .error .valueError

/-- Is `D3DDECLUSAGE(u)` defined?  `bf2types.py:35-55` -/
def usageKnown (u : Int) : Bool :=
  (decide (0 ≤ u) && decide (u ≤ 13)) || u == 261 || u == 517 || u == 773 || u == 1029

/-- `visiblemesh.py:91-93` and `visiblemesh.py:260`.  `flag is USED` is `flag == 0` for the small
ints CPython caches. -/
def vertexSize : List VAttr → Except Err Nat
  | [] => .ok 0
  | a :: as =>
    if a.flag = 0 then
      match declLen a.vartype with
      | .error e => .error e
      | .ok n =>
        match vertexSize as with
        | .error e => .error e
        | .ok r => .ok (n + r)
    else vertexSize as

/-- `int(attrib.offset / self.vertformat)` -/
def attrPos (vertformat : Int) (a : VAttr) : Except Err Int :=
  if vertformat = 0 then .error .zeroDivisionError else .ok (intTrueDiv a.offset vertformat)

variable {F : Type}

/-- `self.vertices[vstart:vend]` of a material (lines 265-267, 289-292, 372-375, 464-466,
473-475). -/
def matVertices (vs : Nat) (vertices : List F) (m : Mat F) : List F :=
  pySlice vertices (m.vstart * vs) (m.vstart * vs + m.vnum * vs)

/-- `l[i:i+vs] for i in range(0, len(l), vs)`, for `vs > 0`. -/
def chunks (vs : Nat) (l : List F) : List (List F) :=
  (List.range ((l.length + vs - 1) / vs)).map fun i => pySlice l (i * vs : Nat) (i * vs + vs : Nat)

/-- `visiblemesh.py:289-311` and `372-395`: one material, with `edit` for the inner part.  A zero
step makes `range` raise `ValueError`. -/
def editMat (edit : List F → Except Err (List F)) (m : Mesh F) (mat : Mat F) :
    Except Err (List F) :=
  match vertexSize m.vattrs with
  | .error e => .error e
  | .ok vs =>
    if vs = 0 then .error .valueError
    else flatMapE edit (chunks vs (matVertices vs m.vertices mat))

/-- The loops of `translate` (lines 281-311) and `rotate` (lines 364-395). -/
def editVertices (edit : List F → Except Err (List F)) (m : Mesh F) : Except Err (List F) :=
  flatMapE (fun g => flatMapE (fun l => flatMapE (editMat edit m) l.materials) g.lods) m.geoms

/-- `self.vertices = tuple(new_vertices)` at the end of both (lines 314, 398). -/
def setVertices (m : Mesh F) : Except Err (List F) → Mesh F × Option Err
  | .error e => (m, some e)
  | .ok l => ({ m with vertices := l }, none)

/-! ## translate -/

/-- `visiblemesh.py:301-304`; `none` when the loop ends without assigning `vertoffset`. -/
def posOffset (vertformat : Int) : List VAttr → Except Err (Option Int)
  | [] => .ok none
  | a :: as =>
    if a.usage = 0 ∧ a.flag ≠ 255 then
      match attrPos vertformat a with
      | .error e => .error e
      | .ok o => .ok (some o)
    else posOffset vertformat as

variable [FArith F]

/-- `vertex[i] += value` -/
def addAt (vertex : List F) (i : Int) (value : F) : Except Err (List F) :=
  match pyPos vertex.length i with
  | none => .error .indexError
  | some j => .ok (vertex.modify j fun x => FArith.add x value)

/-- `visiblemesh.py:306-308`, from `valueId = k` on. -/
def addAll (o : Int) : Nat → List F → List F → Except Err (List F)
  | _, [], vertex => .ok vertex
  | k, v :: vs, vertex =>
    match addAt vertex (o + k) v with
    | .error e => .error e
    | .ok vertex' => addAll o (k + 1) vs vertex'

/-- `visiblemesh.py:301-308`; using `vertoffset` unassigned is an `UnboundLocalError`. -/
def translateVertex (m : Mesh F) (offset : List F) (vertex : List F) : Except Err (List F) :=
  match posOffset m.vertformat m.vattrs with
  | .error e => .error e
  | .ok none =>
    match offset with
    | [] => .ok vertex
    | _ :: _ => .error .unboundLocalError
  | .ok (some o) => addAll o 0 offset vertex

/-- `visiblemesh.py:279-314` -/
def translate (m : Mesh F) (offset : List F) : Mesh F × Option Err :=
  setVertices m (editVertices (translateVertex m offset) m)

/-! ## rotate -/

section rotate
variable [Libm F]

/-- `position[0]`, `position[1]`, `position[2]` -/
def toVec3 : List F → Except Err (Vec3 F)
  | x :: y :: z :: _ => .ok ⟨x, y, z⟩
  | _ => .error .indexError

def Vec3.toList (v : Vec3 F) : List F := [v.x, v.y, v.z]

/-- `cos(angle)` and `sin(angle)` -/
def trig (angle : F) : Except Err (F × F) :=
  match Libm.cos angle, Libm.sin angle with
  | some c, some s => .ok (c, s)
  | _, _ => .error .valueError

open FArith in
/-- `visiblemesh.py:326-330` -/
def rotPitch (p : Vec3 F) (c s : F) : Vec3 F :=
  ⟨p.x, sub (mul p.y c) (mul p.z s), add (mul p.y s) (mul p.z c)⟩

open FArith in
/-- `visiblemesh.py:339-343` -/
def rotYaw (p : Vec3 F) (c s : F) : Vec3 F :=
  ⟨add (mul p.x c) (mul p.z s), p.y, sub (mul p.z c) (mul p.x s)⟩

open FArith in
/-- `visiblemesh.py:352-356` -/
def rotRoll (p : Vec3 F) (c s : F) : Vec3 F :=
  ⟨sub (mul p.x c) (mul p.y s), add (mul p.x s) (mul p.y c), p.z⟩

/-- Angles in radians, `visiblemesh.py:360-362`. -/
structure Angles (F : Type) where
  yaw : F
  pitch : F
  roll : F

/-- `Ryaw(Rpitch(Rroll(data, roll), pitch), yaw)`, `visiblemesh.py:390` -/
def rotData (r : Angles F) (data : List F) : Except Err (Vec3 F) :=
  match toVec3 data with
  | .error e => .error e
  | .ok v =>
    match trig r.roll with
    | .error e => .error e
    | .ok (cr, sr) =>
      match trig r.pitch with
      | .error e => .error e
      | .ok (cp, sp) =>
        match trig r.yaw with
        | .error e => .error e
        | .ok (cy, sy) => .ok (rotYaw (rotPitch (rotRoll v cr sr) cp sp) cy sy)

/-- `visiblemesh.py:386`: position, normal or tangent. -/
def isVector (u : Int) : Bool := u == 0 || u == 3 || u == 6

/-- `visiblemesh.py:385-391` -/
def rotateAttr (vertformat : Int) (r : Angles F) (vertex : List F) (a : VAttr) :
    Except Err (List F) :=
  if a.flag = 255 then .ok vertex
  else if isVector a.usage then
    match attrPos vertformat a with
    | .error e => .error e
    | .ok o =>
      match declLen a.vartype with
      | .error e => .error e
      | .ok n =>
        match rotData r (pySlice vertex o (o + n)) with
        | .error e => .error e
        | .ok v => .ok (pySliceSet vertex o (o + n) v.toList)
  else .ok vertex

/-- `visiblemesh.py:384-391` -/
def rotateVertex (m : Mesh F) (r : Angles F) (vertex : List F) : Except Err (List F) :=
  foldE (rotateAttr m.vertformat r) vertex m.vattrs

/-- `visiblemesh.py:316-398` -/
def rotate (m : Mesh F) (rotation : List F) : Mesh F × Option Err :=
  match rotation with
  | y :: p :: r :: _ =>
    let a : Angles F := ⟨Libm.radians y, Libm.radians p, Libm.radians r⟩
    setVertices m (editVertices (rotateVertex m a) m)
  | _ => (m, some .indexError)

end rotate

/-! ## change_geoms_order -/

section reorder
omit [FArith F]

/-- `new_vertices` and `new_index` -/
structure Arrays (F : Type) where
  vertices : List F
  index : List Int

/-- `visiblemesh.py:265-272`.  A bare int as index array cannot be sliced. -/
def reorderMat (vs : Nat) (m : Mesh F) (s : Arrays F) (mat : Mat F) :
    Arrays F × Mat F × Option Err :=
  let nv := s.vertices ++ matVertices vs m.vertices mat
  match m.index with
  | .one _ => (⟨nv, s.index⟩, mat, some .typeError)
  | .many ix =>
    let ni := s.index ++ pySlice ix mat.istart (mat.istart + mat.inum)
    if vs = 0 then (⟨nv, ni⟩, mat, some .zeroDivisionError)
    else (⟨nv, ni⟩, { mat with
      vstart := intTrueDiv nv.length vs - mat.vnum, istart := ni.length - mat.inum }, none)

/-- `visiblemesh.py:264-272` -/
def reorderLod (vs : Nat) (m : Mesh F) (s : Arrays F) (l : Lod F) : Arrays F × Lod F × Option Err :=
  match trav (reorderMat vs m) s l.materials with
  | (s', ms, e) => (s', { l with materials := ms }, e)

/-- `visiblemesh.py:263-272` -/
def reorderGeom (vs : Nat) (m : Mesh F) (s : Arrays F) (g : Geom F) :
    Arrays F × Geom F × Option Err :=
  match trav (reorderLod vs m) s g.lods with
  | (s', ls, e) => (s', { g with lods := ls }, e)

/-- What the loop of `visiblemesh.py:261-273` leaves: the geom objects of `self.geoms`, the arrays,
and which of the objects `new_geoms` lists. -/
structure Reordered (F : Type) where
  geoms : List (Geom F)
  arrays : Arrays F
  order : List Nat
  err : Option Err

/-- `visiblemesh.py:261-273`.  `self.geoms[geomId]` names an object: an id given twice is the same
geom mutated twice; negative ids count from the end. -/
def reorderGeoms (vs : Nat) (m : Mesh F) : List (Geom F) → Arrays F → List Int → Reordered F
  | gs, s, [] => ⟨gs, s, [], none⟩
  | gs, s, id :: ids =>
    match pyPos gs.length id with
    | none => ⟨gs, s, [], some .indexError⟩
    | some j =>
      match gs[j]? with
      | none => ⟨gs, s, [], some .indexError⟩
      | some g =>
        match reorderGeom vs m s g with
        | (s', g', some e) => ⟨gs.set j g', s', [], some e⟩
        | (s', g', none) =>
          match reorderGeoms vs m (gs.set j g') s' ids with
          | ⟨gs', s'', js, e⟩ => ⟨gs', s'', j :: js, e⟩

/-- `visiblemesh.py:251-277`.  With duplicate ids the new geom list holds one object twice; the
model copies it, so further edits of such a result need the model `Shared` (C134). -/
def changeGeomsOrder (m : Mesh F) (order : List Int) : Mesh F × Option Err :=
  if order.length ≠ m.geoms.length then (m, some .attributeError)
  else
    match vertexSize m.vattrs with
    | .error e => (m, some e)
    | .ok vs =>
      match reorderGeoms vs m m.geoms ⟨[], []⟩ order with
      | ⟨gs, _, _, some e⟩ => ({ m with geoms := gs }, some e)
      | ⟨gs, s, js, none⟩ =>
        ({ m with
            geoms := js.filterMap fun j => gs[j]?
            vertices := s.vertices
            index := .many s.index }, none)

end reorder

/-! ## canMerge -/

section merge
omit [FArith F]

/-- `visiblemesh.py:415-426`; `'%d' % None` is a `TypeError`. -/
def canMergeMat (a b : Mat F) : Except Err Bool :=
  if a.alphamode ≠ b.alphamode then
    (if a.alphamode = none then .error .typeError else .ok false)
  else if a.fxfile ≠ b.fxfile then .ok false
  else if a.technique ≠ b.technique then .ok false
  else if a.maps ≠ b.maps then .ok false
  else .ok true

/-- `visiblemesh.py:410-426` -/
def canMergeLod (a b : Lod F) : Except Err Bool :=
  if a.materials.length ≠ b.materials.length then .ok false
  else all2 canMergeMat a.materials b.materials

/-- `visiblemesh.py:406-426` -/
def canMergeGeom (a b : Geom F) : Except Err Bool :=
  if a.lods.length ≠ b.lods.length then .ok false
  else all2 canMergeLod a.lods b.lods

/-- `visiblemesh.py:431-433`; the message contains `str(attrib)` (line 983), a `ValueError` for
unknown types and usages. -/
def canMergeAttr (a b : VAttr) : Except Err Bool :=
  if a = b then .ok true
  else
    match declLen a.vartype with
    | .error e => .error e
    | .ok _ => if usageKnown a.usage then .ok false else .error .valueError

/-- `visiblemesh.py:400-440` -/
def canMerge (m o : Mesh F) : Except Err Bool :=
  if m.geoms.length ≠ o.geoms.length then .ok false
  else
    match all2 canMergeGeom m.geoms o.geoms with
    | .error e => .error e
    | .ok false => .ok false
    | .ok true =>
      if m.vattrs.length ≠ o.vattrs.length then .ok false
      else all2 canMergeAttr m.vattrs o.vattrs

/-! ## merge -/

/-- What `merge` returns: `None`, or the class `NotImplementedError`. -/
inductive MergeRet
  | done
  | notImplemented
  deriving DecidableEq, Repr

/-- Local variables of `merge`, lines 450-455. -/
structure MergeSt (F : Type) where
  vertices : List F
  index : List Int
  vstart : Int
  istart : Int
  vertnum : Int
  indexnum : Int

/-- `visiblemesh.py:478-481` -/
def shiftIndex (index : OneOrMany Int) (istart vnum : Int) (i : Nat) : Except Err (List Int) :=
  match index with
  | .one _ => .error .typeError
  | .many l =>
    match pyGet l (istart + i) with
    | none => .error .indexError
    | some v => if 65535 < v + vnum then .error .overflowError else .ok [v + vnum]

/-- `visiblemesh.py:464-522` -/
def mergeMat (m o : Mesh F) (s : MergeSt F) (mat omat : Mat F) : MergeSt F × Mat F × Option Err :=
  match vertexSize m.vattrs with
  | .error e => (s, mat, some e)
  | .ok vs =>
    match m.index with
    | .one _ => (s, mat, some .typeError)
    | .many ix =>
      match vertexSize o.vattrs with
      | .error e => (s, mat, some e)
      | .ok ovs =>
        match flatMapE (shiftIndex o.index omat.istart mat.vnum) (List.range omat.inum.toNat) with
        | .error e => (s, mat, some e)
        | .ok shifted =>
          let mat' := { mat with
            vnum := mat.vnum + omat.vnum, inum := mat.inum + omat.inum
            vstart := s.vstart, istart := s.istart }
          ({ vertices := s.vertices ++ matVertices vs m.vertices mat
                ++ matVertices ovs o.vertices omat
             index := s.index ++ pySlice ix mat.istart (mat.istart + mat.inum) ++ shifted
             vstart := s.vstart + mat'.vnum
             istart := s.istart + mat'.inum
             vertnum := s.vertnum + mat'.vnum
             indexnum := s.indexnum + mat'.inum }, mat', none)

/-- `visiblemesh.py:461-522` -/
def mergeLod (m o : Mesh F) (s : MergeSt F) (l ol : Lod F) : MergeSt F × Lod F × Option Err :=
  match trav2 (mergeMat m o) s l.materials ol.materials with
  | (s', ms, e) => (s', { l with materials := ms }, e)

/-- `visiblemesh.py:460-522` -/
def mergeGeom (m o : Mesh F) (s : MergeSt F) (g og : Geom F) : MergeSt F × Geom F × Option Err :=
  match trav2 (mergeLod m o) s g.lods og.lods with
  | (s', ls, e) => (s', { g with lods := ls }, e)

/-- `visiblemesh.py:525-532`: line 527 evaluates `len(self.index)`. -/
def mergeFinish (m : Mesh F) (gs : List (Geom F)) (s : MergeSt F) : Mesh F × Except Err MergeRet :=
  match m.index with
  | .one _ => ({ m with geoms := gs, vertices := s.vertices }, .error .typeError)
  | .many _ =>
    ({ m with
        geoms := gs
        vertices := s.vertices
        index := .many s.index
        vertnum := s.vertnum
        indexnum := s.indexnum }, .ok .done)

/-- `visiblemesh.py:443-532`, `self` and `other` different objects. -/
def merge (m o : Mesh F) : Mesh F × Except Err MergeRet :=
  match canMerge m o with
  | .error e => (m, .error e)
  | .ok false => (m, .ok .notImplemented)
  | .ok true =>
    match trav2 (mergeGeom m o) ⟨[], [], 0, 0, 0, 0⟩ m.geoms o.geoms with
    | (_, gs, some e) => ({ m with geoms := gs }, .error e)
    | (s, gs, none) => mergeFinish m gs s

/-- `visiblemesh.py:464-522` when `other` is `self`: `other_material` is `material` itself, so each
`+=` reads what the statements before it wrote. -/
def mergeMatSelf (m : Mesh F) (s : MergeSt F) (mat : Mat F) : MergeSt F × Mat F × Option Err :=
  match vertexSize m.vattrs with
  | .error e => (s, mat, some e)
  | .ok vs =>
    match m.index with
    | .one _ => (s, mat, some .typeError)
    | .many ix =>
      match flatMapE (shiftIndex m.index mat.istart mat.vnum) (List.range mat.inum.toNat) with
      | .error e => (s, mat, some e)
      | .ok shifted =>
        let mat1 := { mat with vnum := mat.vnum + mat.vnum }
        let mat2 := { mat1 with inum := mat1.inum + mat1.inum }
        let mat3 := { mat2 with vstart := s.vstart }
        let mat4 := { mat3 with istart := s.istart }
        ({ vertices := s.vertices ++ matVertices vs m.vertices mat ++ matVertices vs m.vertices mat
           index := s.index ++ pySlice ix mat.istart (mat.istart + mat.inum) ++ shifted
           vstart := s.vstart + mat4.vnum
           istart := s.istart + mat4.inum
           vertnum := s.vertnum + mat4.vnum
           indexnum := s.indexnum + mat4.inum }, mat4, none)

def mergeLodSelf (m : Mesh F) (s : MergeSt F) (l : Lod F) : MergeSt F × Lod F × Option Err :=
  match trav (mergeMatSelf m) s l.materials with
  | (s', ms, e) => (s', { l with materials := ms }, e)

def mergeGeomSelf (m : Mesh F) (s : MergeSt F) (g : Geom F) : MergeSt F × Geom F × Option Err :=
  match trav (mergeLodSelf m) s g.lods with
  | (s', ls, e) => (s', { g with lods := ls }, e)

/-- `visiblemesh.py:443-532` called as `mesh.merge(mesh)`. -/
def mergeSelf (m : Mesh F) : Mesh F × Except Err MergeRet :=
  match canMerge m m with
  | .error e => (m, .error e)
  | .ok false => (m, .ok .notImplemented)
  | .ok true =>
    match trav (mergeGeomSelf m) ⟨[], [], 0, 0, 0, 0⟩ m.geoms with
    | (_, gs, some e) => ({ m with geoms := gs }, .error e)
    | (s, gs, none) => mergeFinish m gs s

end merge

/-! ## update_boundaries -/

/-- A pair `min`, `max`. -/
structure Box (F : Type) where
  min : Vec3 F
  max : Vec3 F

/-- `[0.0, 0.0, 0.0]` twice (lines 552-553, 558-559). -/
def Box.zero : Box F := ⟨⟨FArith.zero, FArith.zero, FArith.zero⟩, ⟨FArith.zero, FArith.zero, FArith.zero⟩⟩

/-- `if p < cur: cur = p` -/
def minUpd (cur p : F) : F := if FArith.lt p cur then p else cur
/-- `if p > cur: cur = p` -/
def maxUpd (cur p : F) : F := if FArith.lt cur p then p else cur

/-- `visiblemesh.py:575-589` for one of the two boxes. -/
def Box.extend (b : Box F) (p : Vec3 F) : Box F :=
  ⟨⟨minUpd b.min.x p.x, minUpd b.min.y p.y, minUpd b.min.z p.z⟩,
   ⟨maxUpd b.max.x p.x, maxUpd b.max.y p.y, maxUpd b.max.z p.z⟩⟩

omit [FArith F] in
/-- `visiblemesh.py:568-572`, as far as the attribute `POSITION` of the vertex object goes: the last
position attribute wins. -/
def vertexAttrs (vertformat : Int) (buffer : List F) (pos : Option (List F)) (a : VAttr) :
    Except Err (Option (List F)) :=
  if a.flag = 255 then .ok pos
  else
    match attrPos vertformat a with
    | .error e => .error e
    | .ok o =>
      match declLen a.vartype with
      | .error e => .error e
      | .ok n =>
        if usageKnown a.usage then
          (if a.usage = 0 then .ok (some (pySlice buffer o (o + n))) else .ok pos)
        else .error .valueError

/-- `not self.isSkinnedMesh and self.head.version == 11` -/
def Mesh.bounded (m : Mesh F) : Bool := !m.kind.isSkinned && m.head.version == 11

/-- `visiblemesh.py:564-589`: one vertex; state: material box and lod box.  No position attribute is
an `AttributeError`, a position with fewer than three floats an `IndexError`. -/
def boundVertex (m : Mesh F) (mat : Mat F) (s : Box F × Box F) (vertId : Nat) :
    Except Err (Box F × Box F) :=
  match vertexSize m.vattrs with
  | .error e => .error e
  | .ok vs =>
    let start := (mat.vstart + vertId) * vs
    match foldE (vertexAttrs m.vertformat (pySlice m.vertices start (start + vs))) none m.vattrs with
    | .error e => .error e
    | .ok pos =>
      if m.bounded then
        match pos with
        | none => .error .attributeError
        | some l =>
          match toVec3 l with
          | .error e => .error e
          | .ok p => .ok (s.1.extend p, s.2.extend p)
      else .ok s

/-- `visiblemesh.py:557-592` -/
def boundMat (m : Mesh F) (lodBox : Box F) (mat : Mat F) : Box F × Mat F × Option Err :=
  match foldE (boundVertex m mat) (Box.zero, lodBox) (List.range mat.vnum.toNat) with
  | .error e => (lodBox, mat, some e)
  | .ok (matBox, lodBox') =>
    if m.bounded then (lodBox', { mat with mmin := some matBox.min, mmax := some matBox.max }, none)
    else (lodBox', mat, none)

/-- `visiblemesh.py:552-594` -/
def boundLod (m : Mesh F) (_ : Unit) (l : Lod F) : Unit × Lod F × Option Err :=
  match trav (boundMat m) Box.zero l.materials with
  | (_, ms, some e) => ((), { l with materials := ms }, some e)
  | (b, ms, none) => ((), { l with materials := ms, min := b.min, max := b.max }, none)

/-- `visiblemesh.py:551-594` -/
def boundGeom (m : Mesh F) (_ : Unit) (g : Geom F) : Unit × Geom F × Option Err :=
  match trav (boundLod m) () g.lods with
  | (_, ls, e) => ((), { g with lods := ls }, e)

/-- `visiblemesh.py:547-594` -/
def updateBoundaries (m : Mesh F) : Mesh F × Option Err :=
  match trav (boundGeom m) () m.geoms with
  | (_, gs, e) => ({ m with geoms := gs }, e)

/-! ## get_lod_center_offset -/

/-- `visiblemesh.py:542` -/
def Lod.center (l : Lod F) : Vec3 F :=
  ⟨FArith.half (FArith.add l.min.x l.max.x), FArith.half (FArith.add l.min.y l.max.y),
   FArith.half (FArith.add l.min.z l.max.z)⟩

omit [FArith F] in
/-- `self.geoms[geomId].lods[lodId]`: the positions of the geom and the lod. -/
def lodPos (m : Mesh F) (geomId lodId : Int) : Option (Nat × Nat) :=
  match pyPos m.geoms.length geomId with
  | none => none
  | some j =>
    match m.geoms[j]? with
    | none => none
    | some g =>
      match pyPos g.lods.length lodId with
      | none => none
      | some k => some (j, k)

omit [FArith F] in
/-- The lod object at these positions. -/
def lodAt (m : Mesh F) (p : Nat × Nat) : Option (Lod F) :=
  match m.geoms[p.1]? with
  | none => none
  | some g => g.lods[p.2]?

/-- `visiblemesh.py:534-544`.  The lod object is looked up before the bounds are updated; the
update mutates that object. -/
def getLodCenterOffset (m : Mesh F) (geomId lodId : Int) (updateBounds : Bool) :
    Mesh F × Except Err (Vec3 F) :=
  match lodPos m geomId lodId with
  | none => (m, .error .indexError)
  | some p =>
    match (if updateBounds then updateBoundaries m else (m, none)) with
    | (m', some e) => (m', .error e)
    | (m', none) =>
      match lodAt m' p with
      | none => (m', .error .indexError)
      | some l => (m', .ok l.center)

end Bf2
