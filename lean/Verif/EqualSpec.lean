import Verif.Spec

/-! # Specification vocabulary for equality -/

namespace Bf2

/-- The same number: infinities of the same sign, or finite doubles of the same value.  A NaN is no
number; `0.0` and `-0.0` are the same. -/
def NumEq (x y : F64) : Prop :=
  (x.isFin = true ∧ y.isFin = true ∧ x.value = y.value) ∨
  (x.isInf = true ∧ y.isInf = true ∧ x.neg = y.neg)

/-- The same numbers in the same places. -/
abbrev NumsEq (xs ys : List F64) : Prop := List.Forall₂ NumEq xs ys

/-- All fields of two materials agree but, possibly, `mmax`. -/
structure MatEqual (a b : Mat F64) : Prop where
  alphamode : a.alphamode = b.alphamode
  fxfile : a.fxfile = b.fxfile
  technique : a.technique = b.technique
  mapnum : a.mapnum = b.mapnum
  maps : a.maps = b.maps
  vstart : a.vstart = b.vstart
  istart : a.istart = b.istart
  inum : a.inum = b.inum
  vnum : a.vnum = b.vnum
  u4 : a.u4 = b.u4
  u5 : a.u5 = b.u5
  mmin : NumsEq (optFloats a.mmin) (optFloats b.mmin)

structure BoneEqual (a b : Bone F64) : Prop where
  id : a.id = b.id
  matrix : NumsEq a.matrix.floats b.matrix.floats

structure RigEqual (a b : Rig F64) : Prop where
  bonenum : a.bonenum = b.bonenum
  bones : List.Forall₂ BoneEqual a.bones b.bones

/-- All fields of two lods agree. -/
structure LodEqual (a b : Lod F64) : Prop where
  min : NumsEq a.min.floats b.min.floats
  max : NumsEq a.max.floats b.max.floats
  pivot : NumsEq (optFloats a.pivot) (optFloats b.pivot)
  rignum : a.rignum = b.rignum
  rigs : List.Forall₂ RigEqual a.rigs b.rigs
  nodenum : a.nodenum = b.nodenum
  nodes : List.Forall₂ (fun x y : Mat4 F64 => NumsEq x.floats y.floats) a.nodes b.nodes
  matnum : a.matnum = b.matnum
  materials : List.Forall₂ MatEqual a.materials b.materials

end Bf2
