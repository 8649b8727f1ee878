import Verif.OldMesh
import Verif.Edit

/-!
# Model of the editing methods of `/repo/deprecated/modmesh.py`

`VisMesh.get_vertex`, `update_boundaries`, `update_vertices`, `translate`, `rotate`, `merge` and the
methods of `VisMeshTransform`.  As in `Verif/Edit.lean` every method returns the mesh as it is
afterwards together with the exception raised, if any.

Simplified: a geom that occurs twice in the geom list (after `copy_geom_id`, or an order with
duplicates) is one object in the code and two values here, so later edits of such a mesh are not
covered.  The `print` calls are left out.  `sum((x, d))` is `(0 + x) + d`; the compensated summation of
newer Python versions gives the same for two floats.
-/

namespace Bf2

/-! ## Vertex declarations -/

/-- Is `D3DDECLTYPE(t)` defined?  `modmesh.py:13-21` -/
def oldTypeKnown (t : Int) : Bool := (decide (0 ≤ t) && decide (t ≤ 5)) || t == 17

/-- `len(D3DDECLTYPE(t))`, `modmesh.py:24-32`: `FLOAT4` is missing from the table. -/
def oldDeclLen (t : Int) : Except Err Nat :=
  if t = 0 then .ok 1
  else if t = 1 then .ok 2
  else if t = 2 then .ok 3
  else if t = 4 then .ok 1
  else if t = 5 then .ok 3
  else if t = 17 then .ok 0
  else if t = 3 then .error .keyError
  else .error .valueError

/-- `int(offset / vertformat)`, `D3DDECLTYPE(vartype)`, `D3DDECLUSAGE(usage)` (`modmesh.py:604-606`,
`656-658`); the usages are those of the package. -/
def oldAttr (vertformat : Int) (a : VAttr) : Except Err Int :=
  if vertformat = 0 then .error .zeroDivisionError
  else if !oldTypeKnown a.vartype then .error .valueError
  else if !usageKnown a.usage then .error .valueError
  else .ok (intTrueDiv a.offset vertformat)

variable {F : Type}

/-- A `Vertex` object: its attributes by usage. -/
abbrev VObj (F : Type) := Int → Option (List F)

/-- `setattr(vertex, usage, data)` -/
def VObj.set (v : VObj F) (u : Int) (data : List F) : VObj F :=
  fun u' => if u' = u then some data else v u'

/-- One round of `modmesh.py:602-620`.  Line 612 compares the name of a type with names of usages and
is never true. -/
def readAttr (m : OldMesh F) (id : Int) (vertsize : Int) (v : VObj F) (a : VAttr) :
    Except Err (VObj F) :=
  match oldAttr m.vertformat a with
  | .error e => .error e
  | .ok o =>
    if a.flag = 255 then .ok v
    else if a.vartype = 17 then .ok v
    else
      match oldDeclLen a.vartype with
      | .error e => .error e
      | .ok n => .ok (v.set a.usage (pySlice m.vertices (id * vertsize + o) (id * vertsize + o + n)))

/-- `modmesh.py:599-621` -/
def getVertex (m : OldMesh F) (id : Int) : Except Err (VObj F) :=
  if m.vertformat = 0 then .error .zeroDivisionError
  else foldE (readAttr m id (intTrueDiv m.vertstride m.vertformat)) (fun _ => none) m.vattrs

/-- `[f(x) for x in xs]`, where `f` may raise. -/
def mapE {α β : Type} (f : α → Except Err β) : List α → Except Err (List β)
  | [] => .ok []
  | a :: as =>
    match f a with
    | .error e => .error e
    | .ok b =>
      match mapE f as with
      | .error e => .error e
      | .ok bs => .ok (b :: bs)

/-- `[vertex for vertex in self.get_vertices()]`, `modmesh.py:595-597` -/
def getVertices (m : OldMesh F) : Except Err (List (VObj F)) :=
  mapE (fun i : Nat => getVertex m i) (List.range m.vertnum.toNat)

/-! ## update_boundaries -/

section
variable [FArith F]

/-- The bounds of the lod and of the material a vertex is compared with. -/
structure Bounds2 (F : Type) where
  lod : Box F
  mat : Box F

/-- A new minimum, if there is a component. -/
def minUpd? (cur : F) : Option F → F
  | none => cur
  | some p => minUpd cur p

/-- `modmesh.py:636-642` for one of the two minima. -/
def minList (cur : Vec3 F) (p : List F) : Vec3 F :=
  ⟨minUpd? cur.x p[0]?, minUpd? cur.y p[1]?, minUpd? cur.z p[2]?⟩

/-- `modmesh.py:635-649`: one vertex.  No `POSITION` is an `AttributeError`; fewer than three
components an `IndexError`, after the minima of the components that exist. -/
def oldBoundVertex (s : Bounds2 F) (v : VObj F) : Bounds2 F × Option Err :=
  match v 0 with
  | none => (s, some .attributeError)
  | some p =>
    match p with
    | x :: y :: z :: _ => (⟨s.lod.extend ⟨x, y, z⟩, s.mat.extend ⟨x, y, z⟩⟩, none)
    | _ => (⟨{ s.lod with min := minList s.lod.min p }, { s.mat with min := minList s.mat.min p }⟩,
        some .indexError)

/-- `for x in xs: s = f(s, x)`, where `f` may raise and leave a changed state. -/
def foldS {σ α : Type} (f : σ → α → σ × Option Err) : σ → List α → σ × Option Err
  | s, [] => (s, none)
  | s, a :: as =>
    match f s a with
    | (s', some e) => (s', some e)
    | (s', none) => foldS f s' as

/-- `modmesh.py:631-649`: `list(None)` is a `TypeError`. -/
def oldBoundMat (verts : List (VObj F)) (lod : Box F) (mat : Mat F) : Box F × Mat F × Option Err :=
  match mat.mmin, mat.mmax with
  | some mn, some mx =>
    match foldS oldBoundVertex ⟨lod, ⟨mn, mx⟩⟩
        (pySlice verts mat.vstart (mat.vstart + mat.vnum)) with
    | (s, e) => (s.lod, { mat with mmin := some s.mat.min, mmax := some s.mat.max }, e)
  | _, _ => (lod, mat, some .typeError)

/-- `modmesh.py:627-649` -/
def oldBoundLod (verts : List (VObj F)) (_ : Unit) (l : OldLod F) : Unit × OldLod F × Option Err :=
  match trav (oldBoundMat verts) ⟨l.min, l.max⟩ l.materials with
  | (b, ms, e) => ((), { l with materials := ms, min := b.min, max := b.max }, e)

/-- `modmesh.py:626-649` -/
def oldBoundGeom (verts : List (VObj F)) (_ : Unit) (g : OldGeom F) : Unit × OldGeom F × Option Err :=
  match trav (oldBoundLod verts) () g.lods with
  | (_, ls, e) => ((), { g with lods := ls }, e)

/-- `modmesh.py:624-649` -/
def oldUpdateBoundaries (m : OldMesh F) : OldMesh F × Option Err :=
  match getVertices m with
  | .error e => (m, some e)
  | .ok verts =>
    match trav (oldBoundGeom verts) () m.geoms with
    | (_, gs, e) => ({ m with geoms := gs }, e)

/-! ## update_vertices -/

omit [FArith F] in
/-- `modmesh.py:654-668`: line 662 compares a string with a number and is never true. -/
def writeAttr (vertformat : Int) (v : VObj F) (a : VAttr) : Except Err (List F) :=
  match oldAttr vertformat a with
  | .error e => .error e
  | .ok _ =>
    if a.flag = 255 then .ok []
    else
      match v a.usage with
      | none => .error .attributeError
      | some data => .ok data

omit [FArith F] in
/-- `modmesh.py:652-668` -/
def flatten (m : OldMesh F) (vs : List (VObj F)) : Except Err (List F) :=
  flatMapE (fun v => flatMapE (writeAttr m.vertformat v) m.vattrs) vs

/-- `int(n / (a / b))` for Python ints, `a` and `b` not 0. -/
def intDivDiv (n a b : Int) : Int :=
  truncQ (rndVal 52 (-1074) (rndVal 52 (-1074) (n : ℚ) / rndVal 52 (-1074) ((a : ℚ) / b)))

/-- `modmesh.py:651-672`: the vertices are replaced before the new count is computed. -/
def updateVertices (m : OldMesh F) (vs : List (VObj F)) : OldMesh F × Option Err :=
  match flatten m vs with
  | .error e => (m, some e)
  | .ok l =>
    let m' := { m with vertices := l, vertsList := false }
    if m.vertformat = 0 ∨ m.vertstride = 0 then (m', some .zeroDivisionError)
    else oldUpdateBoundaries { m' with vertnum := intDivDiv l.length m.vertstride m.vertformat }

/-! ## translate, rotate -/

omit [FArith F] in
/-- The vertex objects, and those listed in `vertices`, in order. -/
structure Picks (F : Type) where
  objs : List (VObj F)
  ids : List Nat

omit [FArith F] in
/-- `modmesh.py:680-689`, `703-738`: one vertex of a material is edited and listed. -/
def pickVertex (edit : VObj F → Except Err (VObj F)) (s : Picks F) (i : Nat) : Except Err (Picks F) :=
  match s.objs[i]? with
  | none => .error .indexError
  | some v =>
    match edit v with
    | .error e => .error e
    | .ok v' => .ok ⟨s.objs.set i v', s.ids ++ [i]⟩

omit [FArith F] in
/-- The numbers of the vertices of a material: `vertobjects[mat.vstart:mat.vstart + mat.vnum]`. -/
def matIds (n : Nat) (mat : Mat F) : List Nat :=
  pySlice (List.range n) mat.vstart (mat.vstart + mat.vnum)

omit [FArith F] in
/-- All materials of a mesh in order. -/
def OldMesh.mats (m : OldMesh F) : List (Mat F) :=
  m.geoms.flatMap fun g => g.lods.flatMap fun l => l.materials

/-- `modmesh.py:675-691` and `698-739`: the loops of `translate` and `rotate`. -/
def oldEdit (edit : VObj F → Except Err (VObj F)) (m : OldMesh F) : OldMesh F × Option Err :=
  match getVertices m with
  | .error e => (m, some e)
  | .ok objs =>
    match foldE (pickVertex edit) ⟨objs, []⟩ (m.mats.flatMap (matIds objs.length)) with
    | .error e => (m, some e)
    | .ok s => updateVertices m (s.ids.filterMap fun i => s.objs[i]?)

/-- `modmesh.py:682-688`: `zip` stops at the end of the shorter. -/
def oldTranslateVertex (offset : List F) (v : VObj F) : Except Err (VObj F) :=
  match v 0 with
  | none => .error .attributeError
  | some p => .ok (v.set 0 (List.zipWith (fun x d => FArith.add (FArith.add FArith.zero x) d) p offset))

/-- `modmesh.py:674-691` -/
def oldTranslate (m : OldMesh F) (offset : List F) : OldMesh F × Option Err :=
  oldEdit (oldTranslateVertex offset) m

section
variable [Libm F]

/-- `modmesh.py:705-736`; `Rpitch`, `Ryaw`, `Rroll` (lines 200-238) are those of the package. -/
def oldRotateVertex (r : Angles F) (v : VObj F) : Except Err (VObj F) :=
  match v 0, v 3, v 6 with
  | some p, some n, some t =>
    match rotData r p with
    | .error e => .error e
    | .ok p' =>
      match rotData r n with
      | .error e => .error e
      | .ok n' =>
        match rotData r t with
        | .error e => .error e
        | .ok t' => .ok (((v.set 0 p'.toList).set 3 n'.toList).set 6 t'.toList)
  | _, _, _ => .error .attributeError

/-- `modmesh.py:693-739` -/
def oldRotate (m : OldMesh F) (rotation : List F) : OldMesh F × Option Err :=
  match rotation with
  | y :: p :: r :: _ =>
    oldEdit (oldRotateVertex ⟨Libm.radians y, Libm.radians p, Libm.radians r⟩) m
  | _ => (m, some .indexError)

end

/-! ## merge -/

/-- Local variables of `merge`, `modmesh.py:753-756`. -/
structure OldMergeSt (F : Type) where
  vertices : List (VObj F)
  indices : List Int
  vstart : Int
  istart : Int

omit [FArith F] in
/-- `for i, x in enumerate(xs)` with `ys[i]` looked up only where it is used. -/
def travO {σ α β : Type} (f : σ → α → Option β → σ × α × Option Err) :
    σ → List α → List β → σ × List α × Option Err
  | s, [], _ => (s, [], none)
  | s, a :: as, bs =>
    match f s a bs.head? with
    | (s', a', some e) => (s', a' :: as, some e)
    | (s', a', none) =>
      match travO f s' as bs.tail with
      | (s'', as', e) => (s'', a' :: as', e)

omit [FArith F] in
/-- `modmesh.py:760-789`: a lod or material `other` does not have is an `IndexError` (line 760). -/
def oldMergeMat (m o : OldMesh F) (verts1 verts2 : List (VObj F)) (s : OldMergeSt F)
    (mat : Mat F) (omat : Option (Mat F)) : OldMergeSt F × Mat F × Option Err :=
  match omat with
  | none => (s, mat, some .indexError)
  | some b =>
    let mv := pySlice verts1 mat.vstart (mat.vstart + mat.vnum) ++
      pySlice verts2 b.vstart (b.vstart + b.vnum)
    let mi := pySlice m.index mat.istart (mat.istart + mat.inum) ++
      (pySlice o.index b.istart (b.istart + b.inum)).map (· + mat.vnum)
    ({ vertices := s.vertices ++ mv, indices := s.indices ++ mi
       vstart := s.vstart + mv.length, istart := s.istart + mi.length },
     { mat with vstart := s.vstart, istart := s.istart, vnum := mv.length, inum := mi.length }, none)

omit [FArith F] in
/-- `modmesh.py:759-789` -/
def oldMergeLod (m o : OldMesh F) (verts1 verts2 : List (VObj F)) (s : OldMergeSt F)
    (l : OldLod F) (ol : Option (OldLod F)) : OldMergeSt F × OldLod F × Option Err :=
  match travO (oldMergeMat m o verts1 verts2) s l.materials ((ol.map OldLod.materials).getD []) with
  | (s', ms, e) => (s', { l with materials := ms }, e)

omit [FArith F] in
/-- `modmesh.py:758-789` -/
def oldMergeGeom (m o : OldMesh F) (verts1 verts2 : List (VObj F)) (s : OldMergeSt F)
    (g : OldGeom F) (og : Option (OldGeom F)) : OldMergeSt F × OldGeom F × Option Err :=
  match travO (oldMergeLod m o verts1 verts2) s g.lods ((og.map OldGeom.lods).getD []) with
  | (s', ls, e) => (s', { g with lods := ls }, e)

/-- `modmesh.py:741-792`.  An exception while the bounds are updated comes before the index is
replaced.  `vertattrib.__eq__` (lines 482-486) compares its fields with a tuple; given another
`vertattrib`, the tuple does not know how to compare, so Python asks that one, which compares its own
fields with the tuple.  Hence the attributes are compared by their four fields. -/
def oldMerge (m o : OldMesh F) : OldMesh F × Option Err :=
  if m.kind.isStatic = false ∧ o.kind.isStatic = false then (m, some .notImplementedError)
  else if m.vattrs ≠ o.vattrs then (m, some .notImplementedError)
  else if m.geoms.length ≠ o.geoms.length then (m, some .notImplementedError)
  else
    match getVertices m with
    | .error e => (m, some e)
    | .ok verts1 =>
      match getVertices o with
      | .error e => (m, some e)
      | .ok verts2 =>
        match travO (oldMergeGeom m o verts1 verts2) ⟨[], [], 0, 0⟩ m.geoms o.geoms with
        | (_, gs, some e) => ({ m with geoms := gs }, some e)
        | (s, gs, none) =>
          match updateVertices { m with geoms := gs } s.vertices with
          | (m', some e) => (m', some e)
          | (m', none) =>
            ({ m' with index := s.indices, indexnum := s.indices.length, indexList := false }, none)

end

/-! ## VisMeshTransform -/

/-- `l.insert(i, x)` -/
def pyInsert {α : Type} (l : List α) (i : Int) (x : α) : List α := pySliceSet l i i [x]

/-- `modmesh.py:494-496` -/
def copyGeomId (m : OldMesh F) (idCopy idNew : Int) : OldMesh F × Option Err :=
  let m' := { m with geomnum := m.geomnum + 1 }
  match pyGet m.geoms idCopy with
  | none => (m', some .indexError)
  | some g => ({ m' with geoms := pyInsert m.geoms idNew g }, none)

/-- Materials of a geom. -/
def OldGeom.mats (g : OldGeom F) : List (Mat F) := g.lods.flatMap fun l => l.materials

/-- A geom with every material changed. -/
def OldGeom.mapMats (f : Mat F → Mat F) (g : OldGeom F) : OldGeom F :=
  { g with lods := g.lods.map fun l => { l with materials := l.materials.map f } }

/-- `modmesh.py:498-530`.  A geom without materials gives nothing to unpack (line 499); a tuple does
not support deletion (lines 508, 517). -/
def deleteGeomId (m : OldMesh F) (id : Int) : OldMesh F × Option Err :=
  match pyGet m.geoms id with
  | none => (m, some .indexError)
  | some g =>
    if g.mats = [] then (m, some .valueError)
    else
      let vnum := (g.mats.map Mat.vnum).sum
      let inum := (g.mats.map Mat.inum).sum
      if m.vertformat = 0 then (m, some .zeroDivisionError)
      else
        match g.lods.head?.bind fun l => l.materials.head? with
        | none => (m, some .indexError)
        | some a =>
          let vstart := intDivMul m.vertstride m.vertformat a.vstart
          let n := intDivMul m.vertstride m.vertformat vnum
          if !m.vertsList then (m, some .typeError)
          else
            let m1 := { m with
              vertices := pySliceSet m.vertices vstart (vstart + n) [], vertnum := m.vertnum - vnum }
            if !m.indexList then (m1, some .typeError)
            else
              let shifted := m.geoms.mapIdx fun (i : Nat) h => if (i : Int) > id then
                h.mapMats fun b => { b with vstart := b.vstart - vnum, istart := b.istart - inum }
                else h
              ({ m1 with
                  index := pySliceSet m.index a.istart (a.istart + inum) []
                  indexnum := m.indexnum - inum
                  geomnum := m.geomnum - 1
                  geoms := match pyPos m.geoms.length id with
                    | some j => shifted.eraseIdx j
                    | none => shifted }, none)

/-- `l[i]` that raises. -/
def getE {α : Type} (l : List α) (i : Int) : Except Err α :=
  match pyGet l i with
  | some a => .ok a
  | none => .error .indexError

/-- `modmesh.py:532-535` -/
def orderGeomsBy (m : OldMesh F) (order : List Int) : OldMesh F × Option Err :=
  match mapE (getE m.geoms) order with
  | .error e => (m, some e)
  | .ok gs => ({ m with geoms := gs }, none)

/-- `self.vmesh.vertices[i] = x` -/
def setFloat (m : OldMesh F) (i : Int) (x : F) : OldMesh F × Option Err :=
  if !m.vertsList then (m, some .typeError)
  else
    match pyPos m.vertices.length i with
    | none => (m, some .indexError)
    | some j => ({ m with vertices := m.vertices.set j x }, none)

/-- `modmesh.py:550-551` -/
def setFloats (i : Int) : Nat → List F → OldMesh F → OldMesh F × Option Err
  | _, [], m => (m, none)
  | k, x :: xs, m =>
    match setFloat m (i + k) x with
    | (m', some e) => (m', some e)
    | (m', none) => setFloats i (k + 1) xs m'

/-- `modmesh.py:538-551`: one attribute; the loop over all vertices writes to the one given. -/
def editVertexAttr (id : Int) (usage : Int) (data : List F) (m : OldMesh F) (a : VAttr) :
    OldMesh F × Option Err :=
  if !usageKnown a.usage then (m, some .valueError)
  else if m.vertformat = 0 then (m, some .zeroDivisionError)
  else
    match oldDeclLen a.vartype with
    | .error e => (m, some e)
    | .ok _ =>
      if a.usage = usage ∧ 0 ≤ id ∧ id < m.vertnum then
        setFloats (intTrueDiv a.offset m.vertformat + id * intTrueDiv m.vertstride m.vertformat) 0
          data m
      else (m, none)

/-- `modmesh.py:537-551`; the attribute is given by the name of its usage. -/
def editVertex (m : OldMesh F) (id usage : Int) (data : List F) : OldMesh F × Option Err :=
  foldS (editVertexAttr id usage data) m m.vattrs

/-- `modmesh.py:553-555`; the path is given by its code points, one outside ASCII is a
`UnicodeEncodeError`, a kind of `ValueError`. -/
def renameTexture (m : OldMesh F) (geom lod mat map : Int) (path : List Nat) : OldMesh F × Option Err :=
  if path.any (128 ≤ ·) then (m, some .valueError)
  else
    match pyPos m.geoms.length geom with
    | none => (m, some .indexError)
    | some i =>
      match m.geoms[i]? with
      | none => (m, some .indexError)
      | some g =>
        match pyPos g.lods.length lod with
        | none => (m, some .indexError)
        | some j =>
          match g.lods[j]? with
          | none => (m, some .indexError)
          | some l =>
            match pyPos l.materials.length mat with
            | none => (m, some .indexError)
            | some k =>
              match l.materials[k]? with
              | none => (m, some .indexError)
              | some a =>
                match pyPos a.maps.length map with
                | none => (m, some .indexError)
                | some q =>
                  let a' := { a with maps := a.maps.set q (path.map fun c => UInt8.ofNat c) }
                  let l' := { l with materials := l.materials.set k a' }
                  let g' := { g with lods := g.lods.set j l' }
                  ({ m with geoms := m.geoms.set i g' }, none)

end Bf2
