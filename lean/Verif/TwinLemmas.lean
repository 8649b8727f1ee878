import Verif.TwinSpec
import Verif.OldHistoryLemmas
import Verif.HistoryLemmas
import Verif.Props.OldEdit
import Verif.Props.OldMerge
import Verif.Props.OldRotate
import Verif.Props.OldHistory
import Verif.Props.OldFormat
import Verif.Props.History
import Verif.Props.Size

/-! # Lemmas for C171 -/

namespace Bf2

/-! ## Geoms -/

def unboxed (a : Mat F64) : Mat F64 := { a with mmin := none, mmax := none }

/-- A package geom, seen without boxes. -/
def Geom.boxless (k : Kind) (g : Geom F64) : OldGeom F64 := (g.old0 k).boxless

theorem oldLods_boxless (k : Kind) (ls : List (Lod F64)) (prev : List (Mat F64)) :
    (oldLods k prev ls).map OldLod.boxless = ls.map fun l => (l.old k 0).boxless := by
  induction ls generalizing prev with
  | nil => rfl
  | cons l ls ih => rw [oldLods, List.map_cons, ih, List.map_cons]; rfl

theorem oldGeoms_boxless (k : Kind) (gs : List (Geom F64)) (prev : List (Mat F64)) :
    (oldGeoms k prev gs).map OldGeom.boxless = gs.map (Geom.boxless k) := by
  induction gs generalizing prev with
  | nil => rfl
  | cons g gs ih =>
    rw [oldGeoms, List.map_cons, ih, List.map_cons]
    congr 1
    simp only [OldGeom.boxless, Geom.boxless, Geom.old0, oldLods_boxless, List.map_map]
    rfl

theorem old_boxless (m : Mesh F64) : m.old.boxless =
    { m.old with geoms := m.geoms.map (Geom.boxless m.kind) } := by
  show { m.old with geoms := (oldGeoms m.kind [] m.geoms).map OldGeom.boxless, vertsList := false
                    indexList := false } = _
  rw [oldGeoms_boxless]
  rfl

/-! ## What `SameBut` says -/

theorem sameBut_iff {o : OldMesh F64} {m : Mesh F64} : SameBut o m ↔
    o.geoms.map OldGeom.boxless = m.geoms.map (Geom.boxless m.kind) ∧
    o = { m.old with geoms := o.geoms, vertsList := o.vertsList, indexList := o.indexList } := by
  unfold SameBut
  rw [old_boxless]
  obtain ⟨k, h, u1, gn, gs, an, as, vf, vt, vn, vs, vl, inn, ix, il, u2⟩ := o
  simp only [OldMesh.boxless, Mesh.old, OldMesh.mk.injEq]
  tauto

theorem boxless_mats {o : OldMesh F64} {gs : List (OldGeom F64)} (h : o.geoms.map OldGeom.boxless = gs) :
    o.mats.map unboxed = gs.flatMap fun g => g.lods.flatMap OldLod.materials := by
  subst h
  unfold OldMesh.mats
  simp only [List.map_flatMap, List.flatMap_map, OldGeom.boxless, OldLod.boxless]
  rfl

theorem mesh_boxless_mats (m : Mesh F64) (k : Kind) : m.mats.map unboxed =
    (m.geoms.map (Geom.boxless k)).flatMap fun g => g.lods.flatMap OldLod.materials := by
  unfold Mesh.mats Geom.mats
  simp only [List.map_flatMap, List.flatMap_map, Geom.boxless, Geom.old0, OldGeom.boxless, OldLod.boxless, Lod.old]
  rfl

theorem SameBut.mats {o : OldMesh F64} {m : Mesh F64} (h : SameBut o m) : o.mats.map unboxed = m.mats.map unboxed := by
  rw [boxless_mats (sameBut_iff.1 h).1, ← mesh_boxless_mats]

theorem SameBut.field {o : OldMesh F64} {m : Mesh F64} (h : SameBut o m) {α : Type} (f : Mat F64 → α)
    (hf : ∀ a, f (unboxed a) = f a) : o.mats.map f = m.mats.map f := by
  have := congrArg (List.map f) h.mats
  rw [List.map_map, List.map_map] at this
  have e : f ∘ unboxed = f := funext hf
  rwa [e] at this

/-- Lods with the same shape and the same materials in a row are the same. -/
theorem lods_of_shape : ∀ {L L' : List (OldLod F64)} {x x' : List (Mat F64)},
    L.map (fun l => (l.shape, l.materials.length)) = L'.map (fun l => (l.shape, l.materials.length)) →
    L.flatMap OldLod.materials ++ x = L'.flatMap OldLod.materials ++ x' → L = L' ∧ x = x'
  | [], [], x, x', _, h => ⟨rfl, h⟩
  | [], _ :: _, _, _, h, _ => by simp at h
  | _ :: _, [], _, _, h, _ => by simp at h
  | l :: L, l' :: L', x, x', h, e => by
    rw [List.map_cons, List.map_cons, List.cons.injEq, Prod.mk.injEq] at h
    rw [List.flatMap_cons, List.flatMap_cons, List.append_assoc, List.append_assoc] at e
    obtain ⟨e1, e2⟩ := List.append_inj e h.1.2
    obtain ⟨e3, e4⟩ := lods_of_shape h.2 e2
    refine ⟨?_, e4⟩
    rw [e3]
    congr 1
    have h1 : ({ l with materials := [] } : OldLod F64) = { l' with materials := [] } := h.1.1
    calc l = { ({ l with materials := [] } : OldLod F64) with materials := l.materials } := rfl
      _ = l' := by rw [h1, e1]

theorem geoms_of_shape : ∀ {G G' : List (OldGeom F64)} {x x' : List (Mat F64)},
    G.map OldGeom.shape = G'.map OldGeom.shape →
    (G.flatMap fun g => g.lods.flatMap OldLod.materials) ++ x =
      (G'.flatMap fun g => g.lods.flatMap OldLod.materials) ++ x' → G = G' ∧ x = x'
  | [], [], x, x', _, h => ⟨rfl, h⟩
  | [], _ :: _, _, _, h, _ => by simp at h
  | _ :: _, [], _, _, h, _ => by simp at h
  | g :: G, g' :: G', x, x', h, e => by
    rw [List.map_cons, List.map_cons, List.cons.injEq] at h
    rw [List.flatMap_cons, List.flatMap_cons, List.append_assoc, List.append_assoc] at e
    have h1 : (g.lodnum, g.lods.map fun l => (l.shape, l.materials.length)) =
      (g'.lodnum, g'.lods.map fun l => (l.shape, l.materials.length)) := h.1
    rw [Prod.mk.injEq] at h1
    obtain ⟨e1, e2⟩ := lods_of_shape h1.2 e
    obtain ⟨e3, e4⟩ := geoms_of_shape h.2 e2
    refine ⟨?_, e4⟩
    rw [e3]
    congr 1
    cases g; cases g'
    simp_all

/-! ## Boxes do not count -/

theorem boxless_grown {vs p : Nat} {m : OldMesh F64} {gs : List (OldGeom F64)} (h : BoundsGrown vs p m gs) :
    gs.map OldGeom.boxless = m.geoms.map OldGeom.boxless := by
  refine forall₂_map_eq h ?_
  rintro g g' ⟨h1, h2⟩
  unfold OldGeom.boxless
  rw [h1, forall₂_map_eq (f := OldLod.boxless) (g := OldLod.boxless) h2]
  intro l l' hl
  have h3 : l'.materials.map unboxed = l.materials.map unboxed := by
    refine forall₂_map_eq hl.mats ?_
    rintro a a' ⟨_, _, _, _, -, -, e, -⟩
    rw [e]; rfl
  have h4 := hl.rest
  have h3' : (l'.materials.map fun a => ({ a with mmin := none, mmax := none } : Mat F64)) =
      l.materials.map fun a => { a with mmin := none, mmax := none } := h3
  rw [← h4]
  unfold OldLod.boxless
  simp only [h3']

theorem boxless_update (m : Mesh F64) (k : Kind) :
    (updateBoundaries m).1.geoms.map (Geom.boxless k) = m.geoms.map (Geom.boxless k) := by
  obtain ⟨gs, e, h⟩ := update_bounded m
  rw [e]
  refine forall₂_map_eq h ?_
  intro g g' hg
  unfold Geom.boxless Geom.old0 OldGeom.boxless
  rw [hg.fields]
  simp only [List.map_map, OldGeom.mk.injEq, true_and]
  refine forall₂_map_eq hg.lods ?_
  intro l l' hl
  have h3 : l'.materials.map unboxed = l.materials.map unboxed := by
    refine forall₂_map_eq hl.mats ?_
    intro a a' ha
    rw [ha.fields]; rfl
  have h3' : (l'.materials.map fun a => ({ a with mmin := none, mmax := none } : Mat F64)) =
      l.materials.map fun a => { a with mmin := none, mmax := none } := h3
  rw [hl.fields]
  simp only [Function.comp, OldLod.boxless, Lod.old, h3']

/-! ## Two meshes in step -/

structure InStep (vs : Nat) (o : OldMesh F64) (m : Mesh F64) : Prop where
  same : SameBut o m
  old : OldOrderly vs o
  new : Orderly vs m
  plain : ∀ a ∈ m.vattrs, a.signed = a
  short : ∀ a ∈ m.vattrs, IsShort a.flag ∧ IsShort a.offset ∧ IsShort a.vartype ∧ IsShort a.usage

theorem SameBut.of {o : OldMesh F64} {m : Mesh F64} {gs : List (OldGeom F64)} {b c : Bool}
    (hg : gs.map OldGeom.boxless = m.geoms.map (Geom.boxless m.kind))
    (h : o = { m.old with geoms := gs, vertsList := b, indexList := c }) : SameBut o m := by
  subst h
  exact sameBut_iff.2 ⟨hg, rfl⟩

namespace InStep

variable {vs : Nat} {o : OldMesh F64} {m : Mesh F64}

theorem eq (h : InStep vs o m) :
    o = { m.old with geoms := o.geoms, vertsList := o.vertsList, indexList := o.indexList } := (sameBut_iff.1 h.same).2

theorem kind (h : InStep vs o m) : o.kind = m.kind := congrArg OldMesh.kind h.eq
theorem vertformat (h : InStep vs o m) : o.vertformat = m.vertformat := congrArg OldMesh.vertformat h.eq
theorem vertstride (h : InStep vs o m) : o.vertstride = m.vertstride := congrArg OldMesh.vertstride h.eq
theorem vertices (h : InStep vs o m) : o.vertices = m.vertices := congrArg OldMesh.vertices h.eq
theorem vertnum (h : InStep vs o m) : o.vertnum = m.vertnum := congrArg OldMesh.vertnum h.eq
theorem index (h : InStep vs o m) : o.index = m.index.elems := congrArg OldMesh.index h.eq
theorem attrs' (h : InStep vs o m) : o.vattrs = m.vattrs.map VAttr.signed := congrArg OldMesh.vattrs h.eq

theorem attrs (h : InStep vs o m) : o.vattrs = m.vattrs := by
  rw [h.attrs', List.map_congr_left h.plain, List.map_id']

theorem packed (h : InStep vs o m) : Packed vs m.old := by
  have h1 := h.old.packed
  refine ⟨?_, ?_⟩
  · show PackedTable vs m.vertformat m.vertstride (m.vattrs.map VAttr.signed)
    rw [← h.vertformat, ← h.vertstride, ← h.attrs']; exact h1.table
  · show (m.vertices.length : Int) = m.vertnum * vs
    rw [← h.vertices, ← h.vertnum]; exact h1.count

theorem table (h : InStep vs o m) : PackedTable vs m.vertformat m.vertstride m.vattrs := by
  rw [← h.vertformat, ← h.vertstride, ← h.attrs]; exact h.old.packed.table

theorem float3 (h : InStep vs o m) {u : Int} {q : Nat} (hq : Float3At o.vertformat o.vattrs u q) :
    Float3At m.vertformat m.vattrs u q := by
  rw [← h.vertformat, ← h.attrs]; exact hq

/-- Editing what the two modules hold, the deprecated module computes the same vertices. -/
theorem edited (h : InStep vs o m) {edit : VObj F64 → Except Err (VObj F64)} {E : List F64 → List F64}
    (step : ∀ v w, Holds v m.vattrs w → ∃ v', edit v = .ok v' ∧ Holds v' m.vattrs (E w)) :
    (oldEdit edit o).1.vertices = (oldEdit edit m.old).1.vertices := by
  obtain ⟨n, hn, hlen⟩ := h.old.packed.num
  have hn' : m.old.vertnum = n := by rw [← hn]; exact h.vertnum.symm
  have hlen' : m.old.vertices.length = n * vs := by rw [← hlen]; exact congrArg List.length h.vertices.symm
  have hattrs : m.old.vattrs = m.vattrs := by rw [← h.attrs]; exact h.attrs'.symm
  rw [(oldEdit_tiled_fst h.old.packed h.old.tiled hn hlen h.old.small (by rw [h.attrs]; exact step)).1,
    (oldEdit_tiled_fst h.packed (old_tiled h.new.verts h.packed) hn' hlen'
      (by show m.vertices.length ≤ _; rw [← h.vertices]; exact h.old.small) (by rw [hattrs]; exact step)).1, h.vertices]
  rfl

/-- Vertices replaced by the same ones, boxes anyhow. -/
theorem replaced (h : InStep vs o m) {l : List F64} {gs : List (OldGeom F64)} {p : Nat}
    (hl : l.length = m.vertices.length) (hg : BoundsGrown vs p { o with vertices := l, vertsList := false } gs) :
    InStep vs { o with vertices := l, vertsList := false, geoms := gs } { m with vertices := l } where
  same := by
    refine SameBut.of (gs := gs) (b := false) (c := o.indexList) ?_ ?_
    · rw [boxless_grown hg]; exact (sameBut_iff.1 h.same).1
    · conv_lhs => rw [h.eq]
      rfl
  old := h.old.grown (by rw [hl, h.vertices]) hg
  new := h.new.set_vertices hl
  plain := h.plain
  short := h.short

theorem first (h : InStep vs o m) {q : Nat} (hq : Float3At m.vertformat m.vattrs 0 q) :
    ∃ a, FirstPosition m.vattrs a ∧ StartsAt m.vertformat a q := by
  have hs := h.table.small
  have hfit := h.table.packs.fits h.table.format hq
  have key : ∀ l : List VAttr, (∃ a ∈ l, a.flag ≠ 255 ∧ a.usage = 0) → ∃ a, FirstPosition l a := by
    intro l
    induction l with
    | nil => rintro ⟨a, ha, -⟩; cases ha
    | cons b l ih =>
      rintro ⟨a, ha, hf, hu⟩
      by_cases hb : b.usage = 0 ∧ b.flag ≠ 255
      · exact ⟨b, [], l, rfl, hb, fun c hc => by cases hc⟩
      · rcases List.mem_cons.1 ha with rfl | ha
        · exact absurd ⟨hu, hf⟩ hb
        · obtain ⟨c, pre, post, e, e1, e2⟩ := ih ⟨a, ha, hf, hu⟩
          refine ⟨c, b :: pre, post, by rw [e]; rfl, e1, fun d hd => ?_⟩
          rcases List.mem_cons.1 hd with rfl | hd
          · exact hb
          · exact e2 d hd
  have hq' := hq
  obtain ⟨b, hb, hb1, hb2, -⟩ := hq
  obtain ⟨a, ha⟩ := key _ ⟨b, hb, hb1, hb2⟩
  have ha' := ha
  obtain ⟨pre, post, e, e1, -⟩ := ha
  obtain ⟨-, e2⟩ := hq'.unique h.table (a := a) (by rw [e]; simp) e1.2 e1.1
  exact ⟨a, ha', h.table.format, e2, by omega⟩

theorem translate (h : InStep vs o m) (d : Vec3 F64) (nz : ∀ t ∈ d.toList, t ≠ F64.zero.negate) :
    InStep vs (oldTranslate o d.toList).1 (Bf2.translate m d.toList).1 ∧
      (oldTranslate o d.toList).2 = none ∧ (Bf2.translate m d.toList).2 = none := by
  obtain ⟨q, hq⟩ := h.old.pos
  have hq' := h.float3 hq
  obtain ⟨a, ha, hs⟩ := h.first hq'
  have hsig : Float3At m.vertformat (m.vattrs.map VAttr.signed) 0 q := by
    rw [← h.attrs', ← h.vertformat]; exact hq
  have hsm : m.vertices.length ≤ 2 ^ 53 := by rw [← h.vertices]; exact h.old.small
  obtain ⟨e1, e2⟩ := C87_same_as_package h.packed h.new.verts ha hs hsig hsm d nz
  obtain ⟨l, gs, e3, -, -, hg⟩ := C87_translate_tiled h.old.packed h.old.tiled hq h.old.bounds h.old.small d []
  have e3' : oldTranslate o d.toList = _ := e3
  obtain ⟨l', e4, hl⟩ := translate_any h.new.verts d.toList
  have e5 : (oldTranslate o d.toList).1.vertices = (oldTranslate m.old d.toList).1.vertices :=
    h.edited (edit := oldTranslateVertex d.toList) (E := movedVert q d) (by
      have := translate_step (F := F64) h.table hq' d []
      rw [List.append_nil] at this
      exact this)
  have : l = l' := by
    rw [e1, e4, e3'] at e5
    exact e5
  subst this
  refine ⟨?_, by rw [e3'], e2⟩
  rw [e3', e4]
  exact h.replaced hl hg

theorem rotate [Libm F64] (h : InStep vs o m) (y p r : F64) (rest : List F64)
    (defined : ∀ a ∈ [y, p, r], (Libm.cos (Libm.radians a)).isSome ∧ (Libm.sin (Libm.radians a)).isSome) :
    InStep vs (oldRotate o (y :: p :: r :: rest)).1 (Bf2.rotate m (y :: p :: r :: rest)).1 ∧
      (oldRotate o (y :: p :: r :: rest)).2 = none ∧ (Bf2.rotate m (y :: p :: r :: rest)).2 = none := by
  obtain ⟨oP, hP⟩ := h.old.pos
  obtain ⟨oN, hN⟩ := h.old.normal
  obtain ⟨oT, hT⟩ := h.old.tangent
  have hsm : m.vertices.length ≤ 2 ^ 53 := by rw [← h.vertices]; exact h.old.small
  obtain ⟨cy, hcy⟩ := Option.isSome_iff_exists.1 (defined y (by simp)).1
  obtain ⟨sy, hsy⟩ := Option.isSome_iff_exists.1 (defined y (by simp)).2
  obtain ⟨cp, hcp⟩ := Option.isSome_iff_exists.1 (defined p (by simp)).1
  obtain ⟨sp, hsp⟩ := Option.isSome_iff_exists.1 (defined p (by simp)).2
  obtain ⟨cr, hcr⟩ := Option.isSome_iff_exists.1 (defined r (by simp)).1
  obtain ⟨sr, hsr⟩ := Option.isSome_iff_exists.1 (defined r (by simp)).2
  have ht : Trig ⟨Libm.radians y, Libm.radians p, Libm.radians r⟩ cy sy cp sp cr sr :=
    ⟨⟨hcy, hsy⟩, ⟨hcp, hsp⟩, ⟨hcr, hsr⟩⟩
  obtain ⟨e1, e2⟩ := oldRotate_package h.packed h.new.verts h.plain (h.float3 hP) (h.float3 hN) (h.float3 hT) hsm ht rest
  obtain ⟨l, gs, e3, -, -, -, hg⟩ := oldRotate_tiled h.old.packed h.old.tiled hP hN hT h.old.bounds h.old.small ht rest
  obtain ⟨l', e4, hl, -⟩ := C26_rotate_vectors_only h.new.verts h.new.vectors (y :: p :: r :: rest) e2
  have e5 : (oldRotate o (y :: p :: r :: rest)).1.vertices = (oldRotate m.old (y :: p :: r :: rest)).1.vertices :=
    h.edited (rotate_step h.table (h.float3 hP) (h.float3 hN) (h.float3 hT) ht)
  have : l = l' := by
    rw [e1, e4, e3] at e5
    exact e5
  subst this
  refine ⟨?_, by rw [e3], e2⟩
  rw [e3, e4]
  exact h.replaced hl hg

theorem update (h : InStep vs o m) : InStep vs o (updateBoundaries m).1 := by
  obtain ⟨gs, e, -⟩ := update_bounded m
  have hg := boxless_update m m.kind
  refine ⟨?_, h.old, h.new.update, by rw [e]; exact h.plain, by rw [e]; exact h.short⟩
  refine sameBut_iff.2 ⟨?_, ?_⟩
  · rw [(sameBut_iff.1 h.same).1, ← hg, e]
  · conv_lhs => rw [h.eq]
    rw [e]
    rfl

end InStep

/-! ## Merging -/

theorem zip_unboxed {α : Type} (f : Mat F64 → Mat F64 → α) (hf : ∀ a b, f (unboxed a) (unboxed b) = f a b)
    {A B A' B' : List (Mat F64)} (hA : A.map unboxed = A'.map unboxed) (hB : B.map unboxed = B'.map unboxed) :
    List.zipWith f A B = List.zipWith f A' B' := by
  have e : ∀ X Y : List (Mat F64), List.zipWith f X Y = List.zipWith f (X.map unboxed) (Y.map unboxed) := by
    intro X Y
    rw [List.zipWith_map]
    simp only [hf]
  rw [e A B, e A' B', hA, hB]

theorem retile_unboxed (v i : Int) (l : List (Mat F64)) :
    (retile v i l).map unboxed = retile v i (l.map unboxed) := by
  induction l generalizing v i with
  | nil => rfl
  | cons a l ih => rw [retile, List.map_cons, ih, List.map_cons]; rfl

theorem merged_unboxed {A B A' B' : List (Mat F64)} (hA : A.map unboxed = A'.map unboxed)
    (hB : B.map unboxed = B'.map unboxed) : (retile 0 0 (List.zipWith addCounts A B)).map unboxed =
      (retile 0 0 (List.zipWith addCounts A' B')).map unboxed := by
  rw [retile_unboxed, retile_unboxed, List.map_zipWith, List.map_zipWith]
  rw [zip_unboxed (fun a b => unboxed (addCounts a b)) (fun _ _ => rfl) hA hB]

/-- The shape without boxes. -/
def shapeless (x : Int × List (OldLod F64 × Nat)) : Int × List (OldLod F64 × Nat) :=
  (x.1, x.2.map fun y => (y.1.boxless, y.2))

theorem shape_boxless (g : OldGeom F64) : g.boxless.shape = shapeless g.shape := by
  unfold OldGeom.shape shapeless OldGeom.boxless
  simp only [List.map_map]
  congr 1
  apply List.map_congr_left
  intro l _
  simp only [Function.comp, OldLod.boxless, OldLod.shape, List.length_map, List.map_nil]

def lodShapeOld (k : Kind) (x : Int × List (Lod F64 × Nat)) : Int × List (OldLod F64 × Nat) :=
  (x.1, x.2.map fun y => ((y.1.old k 0).boxless, y.2))

theorem shape_boxless_new (k : Kind) (g : Geom F64) : (g.boxless k).shape = lodShapeOld k g.shape := by
  unfold OldGeom.shape lodShapeOld Geom.boxless Geom.old0 OldGeom.boxless Geom.shape
  simp only [List.map_map]
  congr 1
  apply List.map_congr_left
  intro l _
  simp only [Function.comp, OldLod.boxless, OldLod.shape, Lod.old, List.length_map, List.map_nil]

/-- How many materials each lod has. -/
def OldGeom.lens (g : OldGeom F64) : List Nat := g.lods.map fun l => l.materials.length

theorem oldSameCounts_iff {o o' : OldMesh F64} : OldSameCounts o o' ↔ o.geoms.map OldGeom.lens = o'.geoms.map OldGeom.lens := by
  unfold OldSameCounts
  rw [← List.forall₂_eq_eq_eq, List.forall₂_map_left_iff, List.forall₂_map_right_iff]
  constructor <;> intro h <;> refine h.imp ?_ <;> intro g g' hg
  · unfold OldGeom.lens
    rw [← List.forall₂_eq_eq_eq, List.forall₂_map_left_iff, List.forall₂_map_right_iff]
    exact hg
  · unfold OldGeom.lens at hg
    rw [← List.forall₂_eq_eq_eq, List.forall₂_map_left_iff, List.forall₂_map_right_iff] at hg
    exact hg

theorem lens_boxless (g : OldGeom F64) : g.boxless.lens = g.lens := by
  unfold OldGeom.lens OldGeom.boxless
  rw [List.map_map]
  apply List.map_congr_left
  intro l _
  simp only [Function.comp, OldLod.boxless, List.length_map]

theorem SameBut.lens {o : OldMesh F64} {m : Mesh F64} (h : SameBut o m) :
    o.geoms.map OldGeom.lens = m.geoms.map fun g => g.lods.map fun l => l.materials.length := by
  have e := congrArg (List.map OldGeom.lens) (sameBut_iff.1 h).1
  rw [List.map_map, List.map_map] at e
  have e1 : OldGeom.lens ∘ OldGeom.boxless = OldGeom.lens := funext lens_boxless
  rw [e1] at e
  rw [e]
  apply List.map_congr_left
  intro g _
  show ((g.old0 m.kind).boxless).lens = _
  rw [lens_boxless, OldGeom.lens, Geom.old0, List.map_map]
  rfl

namespace InStep

variable {vs : Nat} {o o' : OldMesh F64} {m m' n : Mesh F64}

theorem counts (h : InStep vs o m) (h' : InStep vs o' m') (c : Compatible m m') : OldSameCounts o o' := by
  rw [oldSameCounts_iff, h.same.lens, h'.same.lens]
  refine (forall₂_map_eq c.geoms ?_).symm
  intro g g' hg
  refine forall₂_map_eq hg ?_
  intro l l' hl
  exact hl.length_eq.symm

theorem merge (h : InStep vs o m) (h' : InStep vs o' m') (static : o.kind.isStatic = true ∨ o'.kind.isStatic = true)
    (merged : Bf2.merge m m' = (n, .ok .done)) (size : n.vertices.length ≤ 2 ^ 53) :
    InStep vs (oldMerge o o').1 n ∧ (oldMerge o o').2 = none := by
  obtain ⟨ix, hix⟩ := h.new.many
  obtain ⟨ix', hix'⟩ := h'.new.many
  obtain ⟨hc, -, hm⟩ := merge_done h.new.inside h'.new.inside hix hix' merged
  have hcounts := h.counts h' hc
  have hattrs : o.vattrs = o'.vattrs := by rw [h.attrs, h'.attrs, hc.vattrs]
  have hable : OldMergeable vs o o' := ⟨h.old.packed, h'.old.packed, hattrs, static, hcounts, h.old.tiled.exist,
    h'.old.tiled.exist, h.old.tiledIndex.exist, h'.old.tiledIndex.exist⟩
  have ids : ∀ x : OldMesh F64, OldOrderly vs x → x.ids.length * vs = x.vertices.length := by
    intro x hx
    obtain ⟨n, hn, hl⟩ := hx.packed.num
    rw [hx.tiled.ids hn, List.length_range, hl]
  have hverts : mergedVerts vs o o' = n.vertices := by
    rw [hm.vertices]
    unfold mergedVerts
    rw [zip_unboxed (fun a b => o.vdata vs a ++ o'.vdata vs b) (fun _ _ => rfl) h.same.mats h'.same.mats]
    unfold pairVerts OldMesh.vdata vertexData
    rw [h.vertices, h'.vertices]
  have hindex : .many (mergedIndex o o') = n.index := by
    rw [hm.index]
    unfold mergedIndex
    rw [zip_unboxed (fun a b => o.idata a ++ (o'.idata b).map (· + a.vnum)) (fun _ _ => rfl) h.same.mats h'.same.mats]
    unfold pairIndex OldMesh.idata indexData
    rw [h.index, h'.index]
  have hsum : (o.ids.length + o'.ids.length) * vs ≤ 2 ^ 53 := by
    rw [← mergedVerts_length hable hable.mats_length, hverts]
    exact size
  have hsmall : o.vertices.length + o'.vertices.length ≤ 2 ^ 53 := by
    rw [← ids o h.old, ← ids o' h'.old, ← Nat.add_mul]
    exact hsum
  obtain ⟨e0, hord, -⟩ := h.old.merge h'.old hattrs static hcounts hsmall
  refine ⟨⟨?_, hord, (h.new.merge_any h'.new merged size).1, ?_, ?_⟩, e0⟩
  · obtain ⟨q, hq⟩ := h.old.pos
    obtain ⟨mm, gs, m1, mid, hg, e1, e2, fin⟩ := oldMerge_final hable hq h.old.bounds hsum
    rw [e1]
    show SameBut m1 n
    have hkind : n.kind = m.kind := by rw [hm.rest]
    have hvnum : n.vertnum = ((List.zipWith addCounts o.mats o'.mats).map Mat.vnum).sum := by
      rw [hm.vertnum, List.map_zipWith, List.map_zipWith]
      rw [zip_unboxed (fun a b => (addCounts a b).vnum) (fun _ _ => rfl) h.same.mats h'.same.mats]
    have hinum : n.indexnum = (mergedIndex o o').length := by
      have e := zip_pairI_length (i1 := o.index) (i2 := o'.index) o.mats o'.mats hable.index hable.index'
      have e3 : (mergedIndex o o').length = ((List.zipWith addCounts o.mats o'.mats).map Mat.inum).sum := e
      rw [e3, hm.indexnum, List.map_zipWith, List.map_zipWith]
      rw [zip_unboxed (fun a b => (addCounts a b).inum) (fun _ _ => rfl) h.same.mats h'.same.mats]
    have hgeoms : gs.map OldGeom.boxless = n.geoms.map (Geom.boxless n.kind) := by
      rw [boxless_grown hg]
      refine (geoms_of_shape (x := []) (x' := []) ?_ ?_).1
      · have s1 : ∀ G : List (OldGeom F64), (G.map OldGeom.boxless).map OldGeom.shape =
            (G.map OldGeom.shape).map shapeless := by
          intro G
          rw [List.map_map, List.map_map]
          exact List.map_congr_left fun g _ => shape_boxless g
        have s2 : ∀ G : List (Geom F64), (G.map (Geom.boxless m.kind)).map OldGeom.shape =
            (G.map Geom.shape).map (lodShapeOld m.kind) := by
          intro G
          rw [List.map_map, List.map_map]
          exact List.map_congr_left fun g _ => shape_boxless_new _ g
        rw [hkind, s1, mid.shape, ← s1, (sameBut_iff.1 h.same).1, s2, s2, hm.shape]
      · rw [List.append_nil, List.append_nil, ← boxless_mats (o := mm) rfl, ← mesh_boxless_mats, mid.mats, hm.mats]
        exact merged_unboxed h.same.mats h'.same.mats
    refine SameBut.of (gs := gs) (b := false) (c := false) hgeoms ?_
    have hidx : mergedIndex o o' = n.index.elems := by rw [← hindex]; rfl
    rw [e2, mid.rest, hverts, ← hvnum, ← hinum, hidx]
    conv_lhs => rw [h.eq]
    conv_rhs => rw [hm.rest]
    rfl
  · rw [hm.rest]; exact h.plain
  · rw [hm.rest]; exact h.short

end InStep

/-! ## Files -/

/-- The same lod, each float but those of boxes replaced. -/
def OldLod.refloat (f : F64 → F64) (l : OldLod F64) : OldLod F64 := { l with
  pivot := l.pivot.map (Vec3.map f), rigs := l.rigs.map (Rig.map f), nodes := l.nodes.map (Mat4.map f) }

theorem boxless_map (k : Kind) (f : F64 → F64) (g : Geom F64) :
    (g.map f).boxless k = ⟨(g.boxless k).lodnum, (g.boxless k).lods.map (OldLod.refloat f)⟩ := by
  unfold Geom.boxless Geom.old0 OldGeom.boxless Geom.map
  simp only [List.map_map, OldGeom.mk.injEq, true_and]
  apply List.map_congr_left
  intro l _
  simp only [Function.comp, OldLod.boxless, OldLod.refloat, Lod.old, Lod.map, List.map_map, List.getLast?_map]
  rfl

/-- Rounding every float keeps them the same. -/
theorem sameBut_map {m n : Mesh F64} (h : SameBut m.old n) (f : F64 → F64) : SameBut (m.map f).old (n.map f) := by
  obtain ⟨-, h2⟩ := sameBut_iff.1 h
  have h1 : m.geoms.map (Geom.boxless m.kind) = n.geoms.map (Geom.boxless n.kind) := by
    rw [← oldGeoms_boxless m.kind m.geoms []]; exact (sameBut_iff.1 h).1
  refine sameBut_iff.2 ⟨?_, ?_⟩
  · show (oldGeoms m.kind [] (m.geoms.map (Geom.map f))).map OldGeom.boxless =
      (n.geoms.map (Geom.map f)).map (Geom.boxless n.kind)
    rw [oldGeoms_boxless, List.map_map, List.map_map]
    have e : ∀ k, (Geom.boxless k ∘ Geom.map f : Geom F64 → OldGeom F64) =
        (fun g : OldGeom F64 => (⟨g.lodnum, g.lods.map (OldLod.refloat f)⟩ : OldGeom F64)) ∘ Geom.boxless k :=
      fun k => funext fun g => boxless_map k f g
    rw [e, e, ← List.map_map, ← List.map_map, h1]
  · simp only [Mesh.old, OldMesh.mk.injEq, true_and] at h2
    obtain ⟨e1, e2, e3, e4, e5, e6, e7, e8, e9, e10, e11, e12, e13⟩ := h2
    simp only [Mesh.old, Mesh.map, OldMesh.mk.injEq, true_and]
    exact ⟨e1, e2, e3, e4, e5, e6, e7, e8, e9, by rw [e10], e11, e12, e13⟩

theorem plain_boxless (o : OldMesh F64) : o.plain.boxless = o.boxless := by
  unfold OldMesh.plain OldMesh.boxless
  simp only [List.map_map, OldMesh.mk.injEq, true_and, and_true]
  apply List.map_congr_left
  intro g _
  simp only [Function.comp, OldGeom.boxless, OldGeom.plain, List.map_map, OldGeom.mk.injEq, true_and]
  apply List.map_congr_left
  intro l _
  rfl

theorem shows_sameBut {o : OldMesh F64} {m n : Mesh F64} (h : Shows o m) (h' : SameBut o n) : SameBut m.old n := by
  unfold SameBut at *
  rw [← h', ← plain_boxless m.old, ← h, plain_boxless]

/-- The length of a lod in a file, from what both modules hold. -/
def OldLod.size (n : Nat) (k : Kind) (version : Int) (l : OldLod F64) : Nat :=
  24 + 12 * l.pivot.toList.length + 2 * n +
    (if k.isSkinned then (l.rigs.map fun r => n + (n + 64) * r.bones.length).sum
      else 64 * (if k.isBundled then 0 else (l.nodenum.getD 0).toNat)) +
    ((l.materials.map Mat.info).map (MatInfo.size n (boxSize k version))).sum

theorem size_boxless {n : Nat} {k : Kind} {version : Int} {l : Lod F64} (h : LodNodesWF k version l) :
    ((l.old k 0).boxless).size n k version = LodInfo.size n k version l.info := by
  have h1 := h.nodes
  unfold OldLod.size LodInfo.size OldLod.boxless Lod.old Lod.info
  simp only [List.map_map]
  have e : ((Mat.info ∘ fun a : Mat F64 => ({ a with mmin := none, mmax := none } : Mat F64))) = Mat.info := rfl
  rcases hs : k.isSkinned
  · rw [hs, Bool.false_or] at h1
    simp only [Bool.false_eq_true, if_false, Option.getD_some, h1]
    rcases k.isBundled <;> rfl
  · simp only [if_true]
    rfl

theorem sameBut_length {m n : Mesh F64} (h : SameBut m.old n) (wm : MeshWF m) (wn : MeshWF n) (pl : Plat) :
    m.restSize pl + m.dataSize = n.restSize pl + n.dataSize := by
  obtain ⟨-, h2⟩ := sameBut_iff.1 h
  have h1 : m.geoms.map (Geom.boxless m.kind) = n.geoms.map (Geom.boxless n.kind) := by
    rw [← oldGeoms_boxless m.kind m.geoms []]; exact (sameBut_iff.1 h).1
  have hk : m.kind = n.kind := congrArg OldMesh.kind h2
  have hh : m.head = n.head := congrArg OldMesh.head h2
  have ha : m.vattrs.length = n.vattrs.length := by
    have := congrArg (fun o : OldMesh F64 => o.vattrs.length) h2
    simpa [Mesh.old] using this
  have hv : m.vertices = n.vertices := congrArg OldMesh.vertices h2
  have hi : m.index.elems = n.index.elems := congrArg OldMesh.index h2
  have hg : m.geoms.length = n.geoms.length := by simpa using congrArg List.length h1
  have key : ∀ x : Mesh F64, MeshWF x →
      (x.geoms.map fun g => (g.info.2.map (LodInfo.size pl.cLong x.kind x.head.version)).sum) =
        (x.geoms.map (Geom.boxless x.kind)).map fun g =>
          (g.lods.map (OldLod.size pl.cLong x.kind x.head.version)).sum := by
    intro x wx
    rw [List.map_map]
    apply List.map_congr_left
    intro g hg
    unfold Geom.info Geom.boxless Geom.old0 OldGeom.boxless
    simp only [Function.comp, List.map_map]
    congr 1
    apply List.map_congr_left
    intro l hl
    exact (size_boxless ((wx.geom g hg).nodes l hl)).symm
  unfold Mesh.restSize Mesh.dataSize
  rw [key m wm, key n wn, h1, hk, hh, ha, hv, hi, hg]

/-! ## Whether they can be saved -/

theorem matInRange_unboxed {pl : Plat} {a : Mat F64} : MatInRange pl (unboxed a) ↔ MatInRange pl a :=
  ⟨fun ⟨h1, h2, h3, h4, h5, h6, h7, h8, h9, h10, h11⟩ => ⟨h1, h2, h3, h4, h5, h6, h7, h8, h9, h10, h11⟩,
    fun ⟨h1, h2, h3, h4, h5, h6, h7, h8, h9, h10, h11⟩ => ⟨h1, h2, h3, h4, h5, h6, h7, h8, h9, h10, h11⟩⟩

theorem lodInRange_boxless {pl : Plat} {l : OldLod F64} : OldLodInRange pl l.boxless ↔ OldLodInRange pl l := by
  constructor
  · rintro ⟨h1, h2, h3, h4, h5, h6⟩
    exact ⟨h1, h2, h3, h4, h5, fun a ha => matInRange_unboxed.1 (h6 _ (List.mem_map_of_mem ha))⟩
  · rintro ⟨h1, h2, h3, h4, h5, h6⟩
    refine ⟨h1, h2, h3, h4, h5, fun a ha => ?_⟩
    obtain ⟨b, hb, rfl⟩ := List.mem_map.1 ha
    exact matInRange_unboxed.2 (h6 b hb)

theorem inRange_boxless {pl : Plat} {o : OldMesh F64} : OldInRange pl o.boxless ↔ OldInRange pl o := by
  constructor
  · rintro ⟨a1, a2, a3, a4, a5, b, c, d, e, f, g, i, j, k, l, n, p⟩
    refine ⟨a1, a2, a3, a4, a5, b, c, fun x hx => ?_, e, f, g, i, j, k, l, n, fun x hx y hy => ?_⟩
    · exact d x.boxless (List.mem_map_of_mem hx)
    · exact lodInRange_boxless.1 (p x.boxless (List.mem_map_of_mem hx) _ (List.mem_map_of_mem hy))
  · rintro ⟨a1, a2, a3, a4, a5, b, c, d, e, f, g, i, j, k, l, n, p⟩
    refine ⟨a1, a2, a3, a4, a5, b, c, fun x hx => ?_, e, f, g, i, j, k, l, n, fun x hx y hy => ?_⟩
    · obtain ⟨x', hx', rfl⟩ := List.mem_map.1 hx
      exact d x' hx'
    · obtain ⟨x', hx', rfl⟩ := List.mem_map.1 hx
      obtain ⟨y', hy', rfl⟩ := List.mem_map.1 hy
      exact lodInRange_boxless.2 (p x' hx' y' hy')

theorem inRange_of_old {pl : Plat} {m : Mesh F64} (wf : MeshWF m)
    (attrs : ∀ a ∈ m.vattrs, IsShort a.flag ∧ IsShort a.offset ∧ IsShort a.vartype ∧ IsShort a.usage)
    (h : OldInRange pl m.old) : InRange pl m := by
  have h' := inRange_boxless.2 h
  rw [old_boxless] at h'
  obtain ⟨a1, a2, a3, a4, a5, b, c, d, e, f, g, i, j, k, l, n, p⟩ := h'
  refine ⟨a1, a2, a3, a4, a5, b, c, fun x hx => ?_, e, attrs, g, i, j, k, l, n, fun x hx y hy => ?_⟩
  · exact d (x.boxless m.kind) (List.mem_map_of_mem hx)
  · have hw := (wf.geom x hx).nodes y hy
    have hp := lodInRange_boxless.1 (p (x.boxless m.kind) (List.mem_map_of_mem hx) ((y.old m.kind 0).boxless)
      (List.mem_map_of_mem (List.mem_map_of_mem hy)))
    refine ⟨?_, hp.bonenum, hp.boneid, ?_, hp.matnum, hp.mats⟩
    · rcases hs : m.kind.isSkinned
      · rw [hw.no_rigs hs]; exact isLong_zero pl
      · exact hp.rignum _ (by unfold Lod.old; rw [hs]; rfl)
    · rcases hs : m.kind.isSkinned
      · exact hp.nodenum _ (by unfold Lod.old; rw [hs]; rfl)
      · rw [hw.no_nodes hs]; exact isLong_zero pl

theorem Twins.inStep [Libm F64] {vs : Nat} {o : OldMesh F64} {m : Mesh F64} (h : Twins vs o m) : InStep vs o m := by
  induction h with
  | @load pl k file o m loaded old order oldOrder plain =>
    have hf : ¬ FirstEmpty m.lods := by
      intro hf
      have := C83_first_lod_without_material pl k file [] m loaded hf
      rw [List.append_nil, old] at this
      exact absurd this (by simp)
    have e := C83_loads_the_same pl k file [] m loaded hf
    rw [List.append_nil, old] at e
    obtain rfl := Except.ok.inj e
    exact ⟨rfl, oldOrder, order, plain, (C07_integers_in_range pl k file m loaded).vattrs⟩
  | translate _ d nz ih => exact (ih.translate d nz).1
  | rotate _ y p r rest defined ih => exact (ih.rotate y p r rest defined).1
  | update _ ih => exact ih.update
  | merge _ _ static merged size ih ih' => exact (ih.merge ih' static merged size).1

end Bf2
