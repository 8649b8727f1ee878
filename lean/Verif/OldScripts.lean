import Verif.OldEdit

/-!
# Model of the functions of the scripts in `/repo/deprecated`

`mesh_order_fix.copy_geom_table` and `box_modify.remove_vertice_id`, `replace_index_id` and
`remove_attribute`.  Every function returns the meshes as they are afterwards together with the
exception raised, if any.

Simplified: `copy_geom_table` is given two different meshes that share no object, and the first one's
`geomnum` is its number of geoms, so that line 7 of the script finds the geom appended in line 6.  The
`print` calls are left out.
-/

namespace Bf2

variable {F : Type}

/-! ## mesh_order_fix.py -/

/-- The arrays of the first mesh, and how many geoms were appended. -/
structure CopySt (F : Type) where
  verts : List F
  index : List Int
  geoms : Nat

/-- `mesh_order_fix.py:9-15`: one material.  A tuple has neither `extend` nor `append`. -/
def copyMat (m o : OldMesh F) (s : CopySt F) (a : Mat F) : CopySt F × Mat F × Option Err :=
  if m.vertformat = 0 then (s, a, some .zeroDivisionError)
  else
    let v := intDivMul m.vertstride m.vertformat a.vstart
    let n := intDivMul m.vertstride m.vertformat a.vnum
    if !m.vertsList then (s, a, some .attributeError)
    else
      let s1 := { s with verts := s.verts ++ pySlice o.vertices v (v + n) }
      let a1 := { a with vstart := a.vstart + m.vertnum }
      let is := pySlice o.index a.istart (a.istart + a.inum)
      if !m.indexList && !is.isEmpty then (s1, a1, some .attributeError)
      else ({ s1 with index := s.index ++ is }, { a1 with istart := a.istart + m.indexnum }, none)

/-- `mesh_order_fix.py:8-15` -/
def copyLod (m o : OldMesh F) (s : CopySt F) (l : OldLod F) : CopySt F × OldLod F × Option Err :=
  match trav (copyMat m o) s l.materials with
  | (s', ms, e) => (s', { l with materials := ms }, e)

/-- `mesh_order_fix.py:6-15` -/
def copyGeom (m o : OldMesh F) (s : CopySt F) (g : OldGeom F) : CopySt F × OldGeom F × Option Err :=
  match trav (copyLod m o) { s with geoms := s.geoms + 1 } g.lods with
  | (s', ls, e) => (s', { g with lods := ls }, e)

/-- `copy_geom_table`, `mesh_order_fix.py:4-18`.  The geoms are the same objects in both meshes, so
the second mesh is changed too. -/
def copyGeomTable (m o : OldMesh F) : OldMesh F × OldMesh F × Option Err :=
  match trav (copyGeom m o) ⟨m.vertices, m.index, 0⟩ o.geoms with
  | (s, gs, some e) =>
    ({ m with geoms := m.geoms ++ gs.take s.geoms, vertices := s.verts, index := s.index },
      { o with geoms := gs }, some e)
  | (s, gs, none) =>
    let m' := { m with
      geoms := m.geoms ++ gs, vertices := s.verts, index := s.index
      geomnum := ((m.geoms ++ gs).length : Int) }
    if m.vertformat = 0 ∨ m.vertstride = 0 then (m', { o with geoms := gs }, some .zeroDivisionError)
    else
      ({ m' with
          vertnum := intDivDiv s.verts.length m.vertstride m.vertformat
          indexnum := (s.index.length : Int) }, { o with geoms := gs }, none)

/-! ## box_modify.py -/

/-- `remove_vertice_id`, `box_modify.py:19-33`.  The argument `id` is never looked at. -/
def removeVertice (m : OldMesh F) (_id : Int) : OldMesh F × Option Err :=
  let m1 := { m with vertsList := true }
  if m.vertformat = 0 then (m1, some .zeroDivisionError)
  else
    let vsize := intTrueDiv m.vertstride m.vertformat
    let m2 := if 24 < m.vertnum then
      { m1 with vertices := pySliceSet m.vertices (24 * vsize) (24 * vsize + vsize) [] } else m1
    if vsize = 0 then (m2, some .zeroDivisionError)
    else ({ m2 with vertnum := intTrueDiv m2.vertices.length vsize }, none)

/-- `replace_index_id`, `box_modify.py:36-41`.  The arguments are never looked at. -/
def replaceIndex (m : OldMesh F) (_original _replace : Int) : OldMesh F :=
  { m with indexList := true, index := m.index.map fun i => if i = 24 then 14 else i }

/-- State of the loop of `remove_attribute`: the vertices, the offset to move by, and the table index
of the attribute. -/
structure RemSt (F : Type) where
  verts : List F
  moved : Int
  entry : Nat

/-- `box_modify.py:53-56`: `offset` and `vlen`. -/
def remAttr (vertformat : Int) (a : VAttr) : Except Err (Int × Nat) :=
  if !usageKnown a.usage then .error .valueError
  else if vertformat = 0 then .error .zeroDivisionError
  else
    match oldDeclLen a.vartype with
    | .error e => .error e
    | .ok n => .ok (intTrueDiv a.offset vertformat, n)

/-- `box_modify.py:63-68`: from the last vertex to the first. -/
def remData (vsize offset : Int) (vlen : Nat) : Nat → List F → List F
  | 0, l => l
  | i + 1, l =>
    remData vsize offset vlen i
      (pySliceSet l (offset + i * vsize) (offset + i * vsize + vlen) [])

/-- `box_modify.py:52-74`: entry `i` of the table.  A tuple does not support deletion. -/
def remStep (m : OldMesh F) (vsize u : Int) (s : RemSt F) (x : Nat × VAttr) :
    RemSt F × (Nat × VAttr) × Option Err :=
  match remAttr m.vertformat x.2 with
  | .error e => (s, x, some e)
  | .ok (offset, vlen) =>
    let s1 := if x.2.usage = u then { s with moved := vlen * m.vertformat, entry := x.1 } else s
    if x.2.usage = u ∧ 0 < m.vertnum ∧ m.vertsList = false then (s1, x, some .typeError)
    else
      let s2 := if x.2.usage = u then
        { s1 with verts := remData vsize offset vlen m.vertnum.toNat s.verts } else s1
      if s2.moved ≠ 0 ∧ offset ≠ 0 then
        (s2, (x.1, { x.2 with offset := x.2.offset - s2.moved }), none)
      else (s2, x, none)

/-- `l` with the positions of its elements. -/
def enumerate {α : Type} (l : List α) : List (Nat × α) := l.mapIdx fun i a => (i, a)

/-- `remove_attribute`, `box_modify.py:44-95`; `u` is the usage with the name given. -/
def removeAttribute (m : OldMesh F) (u : Int) : OldMesh F × Option Err :=
  if m.vertformat = 0 then (m, some .zeroDivisionError)
  else
    match trav (remStep m (intTrueDiv m.vertstride m.vertformat) u) ⟨m.vertices, 0, 0⟩
      (enumerate m.vattrs) with
    | (s, xs, some e) => ({ m with vertices := s.verts, vattrs := xs.map Prod.snd }, some e)
    | (s, xs, none) =>
      let m1 := { m with vertices := s.verts, vattrs := xs.map Prod.snd }
      if s.entry ≠ 0 then
        match m1.vattrs[s.entry]? with
        | none => (m1, some .indexError)
        | some a =>
          match oldDeclLen a.vartype with
          | .error e => (m1, some e)
          | .ok n =>
            let attrs := m1.vattrs.eraseIdx s.entry
            ({ m1 with
                vertstride := m.vertstride - n * m.vertformat, vattrs := attrs
                vertattribnum := (attrs.length : Int) }, none)
      else (m1, none)

end Bf2
