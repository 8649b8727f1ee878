import Verif.EqualLemmas
import Verif.Props.Format

/-!
# Properties of `==`: C53 - C57

A comparison is a value or an exception.  `NumEq` is equality of numbers: a NaN equals nothing, the
two zeros are equal.
-/

namespace Bf2

/-- A material with given lower and upper bound. -/
def mat0 (lo hi : Option (Vec3 F64)) : Mat F64 :=
  { (matOf (0, 0, 3, 3) : Mat F64) with mmin := lo, mmax := hi }

/-- A version 11 lod with these materials. -/
def lod0 (n : Int) (ms : List (Mat F64)) : Lod F64 where
  min := ⟨.zero, .zero, .zero⟩
  max := ⟨.zero, .zero, .zero⟩
  pivot := none
  rignum := 0
  rigs := []
  nodenum := 0
  nodes := []
  matnum := n
  materials := ms

def zero3 : Vec3 F64 := ⟨.zero, .zero, .zero⟩
def inf3 : Vec3 F64 := ⟨.mk' false inf64, .zero, .zero⟩
def nan3 : Vec3 F64 := ⟨.mk' false (inf64 + 1), .zero, .zero⟩

/-! ## C53: materials -/

/-- **C53.** Material equality holds exactly when all fields but `mmax` are equal. -/
theorem C53_material_equal (a b : Mat F64) : eqMat a b = .ok true ↔ MatEqual a b := eqMat_true a b

/-- The upper bounds never matter: not for the answer, not for an exception. -/
theorem C53_ignores_mmax (a b : Mat F64) (u v : Option (Vec3 F64)) :
    eqMat { a with mmax := u } { b with mmax := v } = eqMat a b := rfl

/-- Materials that differ only in `mmax` compare equal, unless `mmin` has a NaN. -/
theorem C53_differing_mmax_equal (a : Mat F64) (u : Option (Vec3 F64)) :
    eqMat a { a with mmax := u } = .ok true ↔ ∀ x ∈ optFloats a.mmin, F64.isNaN x = false := by
  rw [eqMat_true]
  constructor
  · intro h x hx
    have h1 : NumsEq (optFloats a.mmin) (optFloats a.mmin) := h.mmin
    rw [NumsEq, List.forall₂_same] at h1
    have h2 := (feq_iff x x).2 (h1 x hx)
    simp only [F64.feq, Bool.and_eq_true, Bool.not_eq_true'] at h2
    exact h2.1.1
  · intro h
    exact ⟨rfl, rfl, rfl, rfl, rfl, rfl, rfl, rfl, rfl, rfl, rfl, numsEq_refl h⟩

/-- The comparison raises exactly when everything before the bounds agrees, the lower bounds differ,
and the debug message cannot be formatted: one bound missing, or a float that is not finite, the
first of which decides the exception. -/
theorem C53_material_raises (a b : Mat F64) (e : Err) : eqMat a b = .error e ↔
    b = { a with mmin := b.mmin, mmax := b.mmax } ∧
    ¬ NumsEq (optFloats a.mmin) (optFloats b.mmin) ∧
    ((a.mmin.isSome ≠ b.mmin.isSome ∧ e = .typeError) ∨
     (a.mmin.isSome = b.mmin.isSome ∧ ∃ pre x post,
        optFloats a.mmin ++ optFloats b.mmin = pre ++ x :: post ∧
        (∀ y ∈ pre, F64.isFin y = true) ∧
        ((F64.isNaN x = true ∧ e = .valueError) ∨ (F64.isInf x = true ∧ e = .overflowError)))) := by
  rw [eqMat_error]
  refine and_congr_right fun _ => and_congr_right fun hne => ?_
  unfold boundsErr
  rcases ha : a.mmin with _ | p <;> rcases hb : b.mmin with _ | q
  · rw [ha, hb] at hne
    exact absurd List.Forall₂.nil hne
  · simp only [unpack6, Option.some.injEq]
    exact ⟨fun h => Or.inl ⟨by simp, h.symm⟩, fun h => h.elim (fun h => h.2.symm) fun h => by cases h.1⟩
  · simp only [unpack6, Option.some.injEq]
    exact ⟨fun h => Or.inl ⟨by simp, h.symm⟩, fun h => h.elim (fun h => h.2.symm) fun h => by cases h.1⟩
  · simp only [unpack6, fmtAll_some, optFloats, Vec3.floats, Option.isSome_some, ne_eq,
      not_true_eq_false, false_and, false_or, true_and]
    rfl

/-- Equal although `mmax` differs; different `mmin`: false, or one of the three exceptions. -/
example : eqMat (mat0 (some zero3) (some zero3)) (mat0 (some zero3) (some inf3)) = .ok true ∧
    eqMat (mat0 (some zero3) none) (mat0 (some ⟨.zero, .zero, .mk' false 1⟩) none) = .ok false ∧
    eqMat (mat0 (some zero3) none) (mat0 none none) = .error .typeError ∧
    eqMat (mat0 (some nan3) none) (mat0 (some inf3) none) = .error .valueError ∧
    eqMat (mat0 (some inf3) none) (mat0 (some nan3) none) = .error .overflowError := by
  decide +kernel

/-! ## C54: lods -/

/-- **C54.** Well-formed lods of meshes of the same kind compare equal exactly when all their fields
are equal, materials up to `mmax`. -/
theorem C54_lod_equal {k : Kind} {v v' : Int} (a b : Lod F64) (ha : LodNodesWF k v a)
    (hb : LodNodesWF k v' b) (ha' : LodMatsWF k v a) (hb' : LodMatsWF k v' b) :
    eqLod a b = .ok true ↔ LodEqual a b :=
  eqLod_true a b (sameShape_of_wf ha hb ha' hb')

/-- With the same version and finite material bounds no exception is raised, so the answer is false
exactly when a field differs. -/
theorem C54_lod_different {k : Kind} {v : Int} (a b : Lod F64) (ha : LodNodesWF k v a)
    (hb : LodNodesWF k v b) (ha' : LodMatsWF k v a) (hb' : LodMatsWF k v b)
    (hfa : ∀ m ∈ a.materials, ∀ x ∈ optFloats m.mmin, F64.isFin x = true)
    (hfb : ∀ m ∈ b.materials, ∀ x ∈ optFloats m.mmin, F64.isFin x = true) :
    eqLod a b = .ok false ↔ ¬ LodEqual a b := by
  rw [← C54_lod_equal a b ha hb ha' hb']
  obtain ⟨r, hr⟩ := eqLod_total ha hb ha' hb' hfa hfb
  rw [hr]
  cases r <;> simp

/-- Lods of an old and of a newer mesh cannot be compared: the message about the pivot, which only
one of them has, raises. -/
theorem C54_old_and_new_raise {k k' : Kind} {v v' : Int} (a b : Lod F64) (ha : LodNodesWF k v a)
    (hb : LodNodesWF k' v' b) (hv : decide (v ≤ 6) ≠ decide (v' ≤ 6))
    (hmin : NumsEq a.min.floats b.min.floats) (hmax : NumsEq a.max.floats b.max.floats) :
    eqLod a b = .error .typeError := by
  have h1 := ha.pivot
  have h2 := hb.pivot
  rw [← vec3Eq_iff] at hmin hmax
  unfold eqLod
  rw [hmin, hmax]
  rcases hp : a.pivot with _ | p <;> rcases hq : b.pivot with _ | q
  · rw [hp] at h1; rw [hq] at h2; exact absurd (h1.symm.trans h2) hv
  · rfl
  · rfl
  · rw [hp] at h1; rw [hq] at h2; exact absurd (h1.symm.trans h2) hv

theorem lod0_nodes (k : Kind) (n : Int) (ms : List (Mat F64)) : LodNodesWF k 11 (lod0 n ms) :=
  ⟨rfl, rfl, by simp [lod0], fun _ => rfl, by simp [lod0], fun _ => rfl⟩

theorem lod0_mats (lo hi : Vec3 F64) :
    LodMatsWF staticKind 11 (lod0 1 [mat0 (some lo) (some hi)]) := by
  refine ⟨rfl, fun m hm => ?_⟩
  obtain rfl : m = mat0 (some lo) (some hi) := by simpa [lod0] using hm
  exact ⟨rfl, rfl, rfl, rfl⟩

/-- The hypotheses hold of lods with a material; the two lods are equal, with different `mmax`. -/
example : LodNodesWF staticKind 11 (lod0 1 [mat0 (some zero3) (some zero3)]) ∧
    LodMatsWF staticKind 11 (lod0 1 [mat0 (some zero3) (some zero3)]) ∧
    LodMatsWF staticKind 11 (lod0 1 [mat0 (some zero3) (some inf3)]) ∧
    eqLod (lod0 1 [mat0 (some zero3) (some zero3)]) (lod0 1 [mat0 (some zero3) (some inf3)]) = .ok true :=
  ⟨lod0_nodes .., lod0_mats .., lod0_mats .., by decide +kernel⟩

/-- Without agreeing counts equality is not fieldwise, nor symmetric: materials beyond those of the
left operand are not looked at, missing ones raise. -/
theorem C54_needs_counts :
    eqLod (lod0 1 []) (lod0 1 [mat0 none none]) = .ok true ∧
    eqLod (lod0 1 [mat0 none none]) (lod0 1 []) = .error .indexError := by decide +kernel

/-- An old lod (with pivot) and a newer one. -/
example : LodNodesWF staticKind 6 { lod0 0 [] with pivot := some zero3 } ∧
    eqLod { lod0 0 [] with pivot := some zero3 } (lod0 0 []) = .error .typeError := by
  refine ⟨⟨rfl, rfl, by simp [lod0], fun _ => rfl, by simp [lod0], fun _ => rfl⟩, by decide +kernel⟩

/-! ## C55: geoms -/

/-- **C55.** Geoms compare equal exactly when both `lodnum` and the number of lods agree; for
well-formed geoms, when `lodnum` agrees.  The content of the lods never matters. -/
theorem C55_geom_equal (a b : Geom F64) :
    eqGeom a b = true ↔ a.lodnum = b.lodnum ∧ a.lods.length = b.lods.length := by
  unfold eqGeom
  by_cases h1 : a.lodnum = b.lodnum <;> by_cases h2 : a.lods.length = b.lods.length <;> simp [h1, h2]

theorem C55_geom_equal_wf {k k' : Kind} {v v' : Int} (a b : Geom F64) (ha : GeomWF k v a)
    (hb : GeomWF k' v' b) : eqGeom a b = true ↔ a.lodnum = b.lodnum := by
  rw [C55_geom_equal]
  exact ⟨fun h => h.1, fun h => ⟨h, by rw [ha.lods, hb.lods, h]⟩⟩

/-- Two geoms that are equal though their lods are not. -/
example : eqGeom ⟨1, [lod0 0 []]⟩ ⟨1, [lod0 1 [mat0 none none]]⟩ = true ∧
    eqLod (lod0 0 []) (lod0 1 [mat0 none none]) = .ok false ∧
    GeomWF staticKind 11 ⟨1, [lod0 0 []]⟩ := by
  refine ⟨by decide +kernel, by decide +kernel, rfl, ?_, ?_⟩
  · intro l hl
    obtain rfl : l = lod0 0 [] := by simpa using hl
    exact lod0_nodes ..
  · intro l hl
    obtain rfl : l = lod0 0 [] := by simpa using hl
    exact ⟨rfl, by simp [lod0]⟩

/-! ## C56: headers and vertex attributes -/

/-- **C56.** Headers compare equal exactly when they are the same. -/
theorem C56_head_equal (a b : Head) : eqHead a b = true ↔ a = b := by
  obtain ⟨a1, a2, a3, a4, a5⟩ := a
  obtain ⟨b1, b2, b3, b4, b5⟩ := b
  unfold eqHead
  by_cases h1 : a1 = b1 <;> by_cases h2 : a2 = b2 <;> by_cases h3 : a3 = b3 <;>
    by_cases h4 : a4 = b4 <;> by_cases h5 : a5 = b5 <;> simp [h1, h2, h3, h4, h5]

/-- Vertex attributes compare equal exactly when they are the same. -/
theorem C56_vertattrib_equal (a b : VAttr) : eqVAttr a b = true ↔ a = b := by
  obtain ⟨a1, a2, a3, a4⟩ := a
  obtain ⟨b1, b2, b3, b4⟩ := b
  unfold eqVAttr
  by_cases h1 : a1 = b1 <;> by_cases h2 : a2 = b2 <;> by_cases h3 : a3 = b3 <;>
    by_cases h4 : a4 = b4 <;> simp [h1, h2, h3, h4]

example : eqHead ⟨0, 11, 0, 0, 0⟩ ⟨0, 6, 0, 0, 0⟩ = false ∧
    eqVAttr ⟨0, 0, 2, 0⟩ ⟨0, 0, 2, 0⟩ = true := by decide

/-! ## C57: equality as the test of a round trip -/

/-- **C57.** Export a well-formed mesh and load the result: a lod of the original equals its
counterpart exactly when no float that is compared changes its value by rounding to binary32 (and
none is a NaN).  The upper material bounds and the vertices are not compared. -/
theorem C57_round_trip_equal (pl : Plat) (m : Mesh F64) (bs : Bytes) (hw : MeshWF m)
    (he : exportMesh pl m = ⟨bs, none⟩) :
    ∃ m' : Mesh F64, load pl m.kind bs = .ok m' ∧ eqHead m.head m'.head = true ∧
      List.Forall₂ (fun a b => eqVAttr a b = true) m.vattrs m'.vattrs ∧
      List.Forall₂ (fun g h : Geom F64 => eqGeom g h = true ∧
        List.Forall₂ (fun l l' : Lod F64 => eqLod l l' = .ok true ↔
          (∀ x ∈ l.nodeFloats, NumEq x (unpackF (packF x))) ∧
          ∀ mat ∈ l.materials, ∀ x ∈ optFloats mat.mmin, NumEq x (unpackF (packF x))) g.lods h.lods)
        m.geoms m'.geoms := by
  refine ⟨_, C02_reload_of_export pl m bs hw he, (C56_head_equal _ _).2 rfl, ?_, ?_⟩
  · show List.Forall₂ _ m.vattrs m.vattrs
    rw [List.forall₂_same]
    exact fun a _ => (C56_vertattrib_equal a a).2 rfl
  · show List.Forall₂ _ m.geoms (m.geoms.map (Geom.map _))
    rw [List.forall₂_map_right_iff, List.forall₂_same]
    intro g hg
    refine ⟨(C55_geom_equal _ _).2 ⟨rfl, by simp [Geom.map]⟩, ?_⟩
    show List.Forall₂ _ g.lods (g.lods.map (Lod.map _))
    rw [List.forall₂_map_right_iff, List.forall₂_same]
    exact fun l hl => eqLod_map _ l ((hw.geom g hg).nodes l hl).bones

/-- A loaded mesh, exported and loaded again, compares equal to the first exactly where it has no
NaN. -/
theorem C57_loaded_round_trip_equal (pl : Plat) (k : Kind) (file : Bytes) (m : Mesh F64)
    (hm : load pl k file = .ok m) (h1 : m.indexnum ≠ 1) :
    ∃ out, exportMesh pl m = ⟨out, none⟩ ∧ ∃ m' : Mesh F64, load pl k out = .ok m' ∧
      List.Forall₂ (fun g h : Geom F64 => List.Forall₂ (fun l l' : Lod F64 => eqLod l l' = .ok true ↔
          (∀ x ∈ l.nodeFloats, F64.isNaN x = false) ∧
          ∀ mat ∈ l.materials, ∀ x ∈ optFloats mat.mmin, F64.isNaN x = false) g.lods h.lods)
        m.geoms m'.geoms := by
  obtain ⟨hw, rfl⟩ := C06_loaded_wf pl k file m hm
  obtain ⟨r, hr, hmr⟩ := load_ok_map.1 hm
  obtain ⟨out, he, -⟩ := C12_signalling_nans_quieted pl _ file m r hm hr h1
  refine ⟨out, he, m, ?_, ?_⟩
  · have := C02_reload_of_export pl m out hw he
    rw [this]
    congr 1
    subst hmr
    rw [Mesh.map_map]
    exact congrArg (fun f => r.map f) (funext unpackF_packF_unpackF)
  · rw [List.forall₂_same]
    intro g hg
    rw [List.forall₂_same]
    intro l hl
    have h := eqLod_map id l ((hw.geom g hg).nodes l hl).bones
    simp only [id, numEq_self] at h
    rw [Lod.map_id] at h
    exact h

/-- The sample file of the repository: loaded, without NaN. -/
example : (load (F := F64) win staticKind evilBox).toOption.map (fun m =>
    (m.indexnum, m.floats.length, m.floats.all fun x => !x.isNaN)) = some (36, 528, true) := by
  decide +kernel

/-- A lod with 0.1, which is no binary32 value, as a bound. -/
def tenth : Lod F64 := { lod0 0 [] with min := ⟨.mk' false 0x3fb999999999999a, .zero, .zero⟩ }

/-- The reloaded lod differs. -/
example : eqLod tenth (tenth.map fun x => unpackF (packF x)) = .ok false := by decide +kernel

/-- A NaN bound: the lod differs even from an identical copy. -/
theorem C57_nan_never_equal (l l' : Lod F64)
    (h : ∃ x ∈ l.min.floats ++ l.max.floats, F64.isNaN x = true) : eqLod l l' = .ok false := by
  obtain ⟨x, hx, hn⟩ := h
  have hno : ∀ y, x.feq y = false := fun y => by simp [F64.feq, hn]
  have hv : ∀ a b : Vec3 F64, x ∈ a.floats → vec3Eq a b = false := by
    intro a b ha
    simp only [Vec3.floats, List.mem_cons, List.not_mem_nil, or_false] at ha
    rcases ha with h | h | h <;> rw [h] at hno <;> simp [vec3Eq, hno]
  rw [List.mem_append] at hx
  unfold eqLod
  rcases hx with h | h
  · rw [if_pos (hv _ _ h)]
  · split
    · rfl
    · rw [if_pos (hv _ _ h)]

example : ∃ x ∈ nan3.floats, F64.isNaN x = true := ⟨nan3.x, by simp [Vec3.floats], by decide +kernel⟩

/-- The two zeros are equal, although files holding them differ. -/
theorem C57_zeros_equal : NumEq F64.zero F64.zero.negate ∧ packF F64.zero ≠ packF F64.zero.negate := by
  refine ⟨(feq_iff _ _).1 (by decide +kernel), by decide +kernel⟩

end Bf2
