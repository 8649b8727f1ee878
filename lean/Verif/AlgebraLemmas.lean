import Verif.MergeLemmas
import Verif.RotateLemmas

/-! # Lemmas about combinations of editing methods -/

namespace Bf2

variable {F : Type}

/-! ## Maps that work vertex by vertex -/

/-- `φ` keeps the length of arrays of whole vertices and works on parts separately. -/
structure Blockwise (vs : Nat) (φ : List F → List F) : Prop where
  length : ∀ l, vs ∣ l.length → (φ l).length = l.length
  append : ∀ a b, vs ∣ a.length → vs ∣ b.length → φ (a ++ b) = φ a ++ φ b

namespace Blockwise

variable {vs : Nat} {φ : List F → List F}

theorem nil (h : Blockwise vs φ) : φ [] = [] :=
  List.length_eq_zero_iff.1 (h.length [] (Nat.dvd_zero _))

theorem flatten (h : Blockwise vs φ) (ls : List (List F)) (hl : ∀ l ∈ ls, vs ∣ l.length) :
    φ ls.flatten = (ls.map φ).flatten ∧ vs ∣ ls.flatten.length := by
  induction ls with
  | nil => exact ⟨h.nil, Nat.dvd_zero _⟩
  | cons l ls ih =>
    obtain ⟨h1, h2⟩ := ih fun k hk => hl k (by simp [hk])
    rw [List.flatten_cons, List.map_cons, List.flatten_cons,
      h.append _ _ (hl l (by simp)) h2, h1, List.length_append]
    exact ⟨rfl, Nat.dvd_add (hl l (by simp)) h2⟩

theorem drop (h : Blockwise vs φ) (l : List F) (hl : vs ∣ l.length) (k : Nat) (hk : vs ∣ k) :
    (φ l).drop k = φ (l.drop k) := by
  by_cases hkl : k ≤ l.length
  · have h1 : vs ∣ (l.take k).length := by rwa [List.length_take, Nat.min_eq_left hkl]
    have h2 : vs ∣ (l.drop k).length := by rw [List.length_drop]; exact Nat.dvd_sub hl hk
    conv_lhs => rw [← List.take_append_drop k l]
    rw [h.append _ _ h1 h2]
    apply List.drop_left'
    rw [h.length _ h1, List.length_take, Nat.min_eq_left hkl]
  · rw [List.drop_of_length_le (by rw [h.length _ hl]; omega), List.drop_of_length_le (by omega),
      h.nil]

theorem take (h : Blockwise vs φ) (l : List F) (hl : vs ∣ l.length) (k : Nat) (hk : vs ∣ k) :
    (φ l).take k = φ (l.take k) := by
  by_cases hkl : k ≤ l.length
  · have h1 : vs ∣ (l.take k).length := by rwa [List.length_take, Nat.min_eq_left hkl]
    have h2 : vs ∣ (l.drop k).length := by rw [List.length_drop]; exact Nat.dvd_sub hl hk
    conv_lhs => rw [← List.take_append_drop k l]
    rw [h.append _ _ h1 h2]
    apply List.take_left'
    rw [h.length _ h1, List.length_take, Nat.min_eq_left hkl]
  · rw [List.take_of_length_le (by rw [h.length _ hl]; omega), List.take_of_length_le (by omega)]

theorem vertexData (h : Blockwise vs φ) {m : Mesh F} (hm : vs ∣ m.vertices.length) {a : Mat F}
    (ha : VertsInside vs m a) :
    vertexData vs { m with vertices := φ m.vertices } a = φ (vertexData vs m a) := by
  unfold Bf2.vertexData block
  have h1 : vs ∣ (a.vstart * vs).toNat := by
    rw [Int.toNat_mul ha.1 (by omega)]; exact Nat.dvd_mul_left _ _
  have h2 : vs ∣ (a.vnum * vs).toNat := by
    rw [Int.toNat_mul ha.2.1 (by omega)]; exact Nat.dvd_mul_left _ _
  rw [h.drop _ hm _ h1, h.take _ _ _ h2]
  rw [List.length_drop]
  exact Nat.dvd_sub hm h1

theorem tiled (h : Blockwise vs φ) {m : Mesh F} (ht : TiledVerts vs m) :
    TiledVerts vs { m with vertices := φ m.vertices } where
  pos := ht.pos
  size := ht.size
  nonneg := ht.nonneg
  start := ht.start
  total := by
    obtain ⟨n, hn, -⟩ := ht.count
    change ((φ m.vertices).length : Int) = _
    rw [h.length _ (by rw [hn]; exact Nat.dvd_mul_left _ _)]
    exact ht.total

end Blockwise

theorem TiledVerts.dvd {vs : Nat} {m : Mesh F} (h : TiledVerts vs m) : vs ∣ m.vertices.length := by
  obtain ⟨n, hn, -⟩ := h.count
  rw [hn]; exact Nat.dvd_mul_left _ _

theorem TiledVerts.inside' {vs : Nat} {m : Mesh F} (h : TiledVerts vs m) (hi : TiledIndex m) :
    Inside vs m := ⟨h.pos, h.size, h.inside, hi.inside⟩

/-- On tiled meshes with these vertex attributes and this format, `op` is a map of vertices. -/
def Edits (vs : Nat) (attrs : List VAttr) (vf : Int) (op : Mesh F → Mesh F × Option Err) : Prop :=
  ∃ φ : List F → List F, Blockwise vs φ ∧ ∀ m : Mesh F, TiledVerts vs m → m.vattrs = attrs →
    m.vertformat = vf → op m = ({ m with vertices := φ m.vertices }, none)

theorem movedAll_blockwise [FArith F] (vs o : Nat) (d : List F) :
    Blockwise vs (movedAll vs o d) :=
  ⟨fun l _ => movedAll_length vs o d l, fun a b ha _ => movedAll_append a b ha⟩

theorem translate_edits [FArith F] {vs o : Nat} {attrs : List VAttr} {vf : Int} {a : VAttr}
    {d : List F} (hp : FirstPosition attrs a) (hs : StartsAt vf a o) (h : o + d.length ≤ vs) :
    Edits vs attrs vf (fun m => translate m d) :=
  ⟨movedAll vs o d, movedAll_blockwise vs o d, fun m ht ha hf =>
    translate_tiled ht (by rw [ha]; exact hp) (by rw [hf]; exact hs) h⟩

/-- Apply a function to each vertex. -/
def mapVerts (vs : Nat) (g : List F → List F) (l : List F) : List F := (chunks vs l).flatMap g

theorem mapVerts_blockwise {vs : Nat} (hv : 0 < vs) {g : List F → List F}
    (hg : ∀ v, v.length = vs → (g v).length = vs) : Blockwise vs (mapVerts vs g) where
  length := by
    rintro l ⟨n, hn⟩
    refine vertices_induction (vs := vs) (P := fun l => (mapVerts vs g l).length = l.length) ?_ ?_
      n l (by rw [hn, Nat.mul_comm])
    · rw [mapVerts, chunks_nil hv]; rfl
    · intro a b ha ih
      rw [mapVerts, chunks_append hv a b ha, List.flatMap_cons, List.length_append,
        List.length_append, hg a ha, ha]
      congr 1
  append := by
    rintro a b ⟨n, hn⟩ -
    rw [mapVerts, mapVerts, mapVerts, chunks_append_dvd hv n a b (by rw [hn, Nat.mul_comm]),
      List.flatMap_append]

theorem rotate_edits [FArith F] [Libm F] {vs : Nat} (hv : 0 < vs) {attrs : List VAttr} {vf : Int}
    (h3 : ∀ a ∈ attrs, VectorAttr a → a.vartype = 2 ∧ ∃ o, StartsAt vf a o ∧ o + 3 ≤ vs)
    {y p r : F} {rest : List F} {cy sy cp sp cr sr : F}
    (htr : Trig ⟨Libm.radians y, Libm.radians p, Libm.radians r⟩ cy sy cp sp cr sr) :
    Edits vs attrs vf (fun m => rotate m (y :: p :: r :: rest)) := by
  let g : List F → List F := fun v => match foldE (rotateAttr vf ⟨Libm.radians y, Libm.radians p,
    Libm.radians r⟩) v attrs with | .ok w => w | .error _ => v
  have hg : ∀ v : List F, v.length = vs → foldE (rotateAttr vf ⟨Libm.radians y, Libm.radians p,
      Libm.radians r⟩) v attrs = .ok (g v) ∧ (g v).length = vs := by
    intro v hl
    obtain ⟨w, hw, hwl, -⟩ := rotateAttrs_eq htr attrs h3 v hl
    have : g v = w := by
      change (match foldE _ v attrs with | .ok w => w | .error _ => v) = w
      rw [hw]
    rw [this]
    exact ⟨hw, hwl⟩
  refine ⟨mapVerts vs g, mapVerts_blockwise hv fun v hl => (hg v hl).2, ?_⟩
  intro m ht ha hf
  obtain ⟨n, hn, -⟩ := ht.count
  change rotate m (y :: p :: r :: rest) = _
  rw [rotate, editVertices_tiled ht, flatMapE_ok _ g]
  · rfl
  · intro c hc
    rw [rotateVertex, ha, hf]
    exact (hg c (chunks_length _ _ hc n hn)).1

/-! ## Reordering -/

/-- What an order naming the positions `js` makes of `m`. -/
structure Picked (vs : Nat) (m m' : Mesh F) (js : List Nat) : Prop where
  rest : m' = { m with geoms := m'.geoms, vertices := m'.vertices, index := m'.index }
  shape : m'.geoms.map Geom.shape = (js.filterMap fun j => m.geoms[j]?).map Geom.shape
  mats : m'.mats = retile 0 0 ((js.filterMap fun j => m.geoms[j]?).flatMap Geom.mats)
  vertices : m'.vertices =
    ((js.filterMap fun j => m.geoms[j]?).flatMap Geom.mats).flatMap (vertexData vs m)
  index : m'.index =
    .many (((js.filterMap fun j => m.geoms[j]?).flatMap Geom.mats).flatMap (indexData m))

theorem changeGeomsOrder_picked {vs : Nat} {m : Mesh F} {ix : List Int} {order : List Int}
    {js : List Nat} (hin : Inside vs m) (hix : m.index = .many ix)
    (hb : (m.mats.map Mat.vnum).sum ≤ 2 ^ 53) (hp : Permutes m.geoms.length order js) :
    ∃ m', changeGeomsOrder m order = (m', none) ∧ Picked vs m m' js ∧
      List.Forall₂ (GeomKept vs m m') (js.filterMap fun j => m.geoms[j]?) m'.geoms ∧
      (m'.mats.map Mat.vnum).sum = (m.mats.map Mat.vnum).sum ∧
      TiledVerts vs m' ∧ TiledIndex m' := by
  obtain ⟨m', h, hm, hk, hs, hv, hi, hd⟩ := changeGeomsOrder_kept hin hix hb hp
  refine ⟨m', h, ⟨hm, ?_, hd.1, hd.2.1, hd.2.2⟩, hk, hs.1, hv, hi⟩
  have : List.Forall₂ (fun g g' : Geom F => g'.shape = g.shape) _ m'.geoms :=
    hk.imp fun g g' h => h.shape
  generalize (js.filterMap fun j => m.geoms[j]?) = l at this
  generalize m'.geoms = r at this
  induction this with
  | nil => rfl
  | cons h _ ih => rw [List.map_cons, List.map_cons, h, ih]

/-- The outcome is determined by what the picked geoms are like. -/
theorem Picked.unique {vs : Nat} {m x m' y : Mesh F} {js ks : List Nat} (h : Picked vs m x js)
    (h' : Picked vs m' y ks)
    (hrest : m' = { m with geoms := m'.geoms, vertices := m'.vertices, index := m'.index })
    (hk : List.Forall₂ (fun g g' : Geom F => g'.shape = g.shape ∧
      List.Forall₂ (MatKept vs m m') g.mats g'.mats)
      (js.filterMap fun j => m.geoms[j]?) (ks.filterMap fun j => m'.geoms[j]?)) : x = y := by
  have hmats := forall₂_flatten (f := Geom.mats) (g := Geom.mats) (hk.imp fun g g' h => h.2)
  have hg : x.geoms = y.geoms := by
    apply geoms_ext
    · rw [h.shape, h'.shape]
      have : List.Forall₂ (fun g g' : Geom F => g'.shape = g.shape) _ _ :=
        hk.imp fun g g' h => h.1
      generalize (js.filterMap fun j => m.geoms[j]?) = l at this
      generalize (ks.filterMap fun j => m'.geoms[j]?) = r at this
      induction this with
      | nil => rfl
      | cons h _ ih => rw [List.map_cons, List.map_cons, h, ih]
    · exact h.mats.trans ((retile_congr (hmats.imp fun a a' h => h.fields)).symm.trans h'.mats.symm)
  have hv : x.vertices = y.vertices := by
    rw [h.vertices, h'.vertices]
    exact (forall₂_flatMap_eq hmats fun a a' h => h.verts).symm
  have hi : x.index = y.index := by
    rw [h.index, h'.index]
    exact congrArg OneOrMany.many (forall₂_flatMap_eq hmats fun a a' h => h.index).symm
  rw [h.rest, h'.rest, hrest]
  simp only [hg, hv, hi]

theorem picked_forall₂ {α β : Type} {R : α → β → Prop} {l : List α} {r : List β}
    (h : List.Forall₂ R l r) (js : List Nat) :
    List.Forall₂ R (js.filterMap fun j => l[j]?) (js.filterMap fun j => r[j]?) := by
  induction js with
  | nil => exact .nil
  | cons j js ih =>
    rcases hj : l[j]? with _ | a
    · have hr : r[j]? = none := by
        rw [List.getElem?_eq_none_iff] at hj ⊢
        rw [← h.length_eq]; exact hj
      rw [List.filterMap_cons_none hj, List.filterMap_cons_none hr]
      exact ih
    · obtain ⟨b, hb, hab⟩ := forall₂_getElem? h hj
      rw [List.filterMap_cons_some hj, List.filterMap_cons_some hb]
      exact .cons hab ih

/-- Editing vertices commutes with reordering. -/
theorem edit_reorder {vs : Nat} {m : Mesh F} {ix : List Int} {order : List Int} {js : List Nat}
    {op : Mesh F → Mesh F × Option Err} (hop : Edits vs m.vattrs m.vertformat op)
    (hv : TiledVerts vs m) (hi : TiledIndex m) (hix : m.index = .many ix)
    (hb : m.vertices.length ≤ 2 ^ 53) (hp : Permutes m.geoms.length order js) :
    ∃ m1 m2 x, op m = (m1, none) ∧ changeGeomsOrder m order = (m2, none) ∧
      changeGeomsOrder m1 order = (x, none) ∧ op m2 = (x, none) := by
  obtain ⟨φ, hφ, hop⟩ := hop
  obtain ⟨m2, h2, hp2, -, -, hv2, hi2⟩ := changeGeomsOrder_picked (hv.inside' hi) hix
    (hv.sum_le hb) hp
  have hv1 := hφ.tiled hv
  have hi1 : TiledIndex { m with vertices := φ m.vertices } := ⟨hi.nonneg, hi.start, hi.total⟩
  obtain ⟨x, hx, hpx, -⟩ := changeGeomsOrder_picked (m := { m with vertices := φ m.vertices })
    (hv1.inside' hi1) hix (hv.sum_le hb) hp
  have hmv2 : m2.vattrs = m.vattrs := by rw [hp2.rest]
  have hmf2 : m2.vertformat = m.vertformat := by rw [hp2.rest]
  refine ⟨_, m2, x, hop m hv rfl rfl, h2, hx, ?_⟩
  rw [hop m2 hv2 hmv2 hmf2]
  congr 1
  have hmem : ∀ a ∈ (js.filterMap fun j => m.geoms[j]?).flatMap Geom.mats, VertsInside vs m a :=
    fun a ha => hv.inside a (((permutes_picked hp).flatMap_right _).mem_iff.1 ha)
  have hver : x.vertices = φ m2.vertices := by
    rw [hpx.vertices, hp2.vertices]
    change ((js.filterMap fun j => m.geoms[j]?).flatMap Geom.mats).flatMap
      (vertexData vs { m with vertices := φ m.vertices }) = _
    generalize (js.filterMap fun j => m.geoms[j]?).flatMap Geom.mats = l at hmem
    rw [List.flatMap_def, List.flatMap_def, (hφ.flatten _ ?_).1, List.map_map]
    · congr 1
      apply List.map_congr_left
      intro a ha
      exact hφ.vertexData hv.dvd (hmem a ha)
    · intro l' hl'
      obtain ⟨a, ha, rfl⟩ := List.mem_map.1 hl'
      exact vertexData_dvd (hmem a ha)
  have hgeoms : x.geoms = m2.geoms := geoms_ext (hpx.shape.trans hp2.shape.symm)
    (hpx.mats.trans hp2.mats.symm)
  have hindex : x.index = m2.index := hpx.index.trans hp2.index.symm
  have hr := hpx.rest
  rw [hr, hgeoms, hindex, hver]
  conv_lhs => rw [hp2.rest]

/-- Editing vertices distributes over merging. -/
theorem edit_merge {vs : Nat} {m o m' : Mesh F} {ix ox : List Int}
    {op : Mesh F → Mesh F × Option Err} (hop : Edits vs m.vattrs m.vertformat op)
    (hfmt : o.vertformat = m.vertformat) (tm : TiledVerts vs m) (tmi : TiledIndex m)
    (tv : TiledVerts vs o) (toi : TiledIndex o) (hix : m.index = .many ix)
    (hox : o.index = .many ox) (ok : merge m o = (m', .ok .done)) :
    ∃ m1 o1 x, op m = (m1, none) ∧ op o = (o1, none) ∧
      merge m1 o1 = (x, .ok .done) ∧ op m' = (x, none) := by
  obtain ⟨φ, hφ, hop⟩ := hop
  have inm := tm.inside' tmi
  have ino := tv.inside' toi
  obtain ⟨hc, hno, h⟩ := merge_done inm ino hix hox ok
  obtain ⟨t1, t2⟩ := h.tiled inm ino
  have e1 := hop m tm rfl rfl
  have e2 := hop o tv hc.vattrs.symm hfmt
  have e3 := hop m' t1 (by rw [h.rest]) (by rw [h.rest])
  refine ⟨_, _, _, e1, e2, ?_, e3⟩
  have i1 : TiledIndex { m with vertices := φ m.vertices } := ⟨tmi.nonneg, tmi.start, tmi.total⟩
  have i2 : TiledIndex { o with vertices := φ o.vertices } := ⟨toi.nonneg, toi.start, toi.total⟩
  obtain ⟨x, hx, hmx⟩ := merge_ok (m := { m with vertices := φ m.vertices })
    (o := { o with vertices := φ o.vertices }) ⟨hc.geoms, hc.vattrs⟩
    ((hφ.tiled tm).inside' i1) ((hφ.tiled tv).inside' i2) hix hox hno
  rw [hx]
  congr 1
  have hpv : List.zipWith (pairVerts vs { m with vertices := φ m.vertices }
      { o with vertices := φ o.vertices }) m.mats o.mats =
      (List.zipWith (pairVerts vs m o) m.mats o.mats).map φ := by
    rw [List.map_zipWith]
    apply zipWith_ext m.mats.length rfl hc.mats_length.symm rfl hc.mats_length.symm
    intro i a b a' b' h1 h2 h3 h4
    rw [h1] at h3
    rw [h2] at h4
    simp only [Option.some.injEq] at h3 h4
    subst h3 h4
    have hva := tm.inside a (List.mem_of_getElem? h1)
    have hvb := tv.inside b (List.mem_of_getElem? h2)
    unfold pairVerts
    rw [hφ.vertexData tm.dvd hva, hφ.vertexData tv.dvd hvb,
      hφ.append _ _ (vertexData_dvd hva) (vertexData_dvd hvb)]
  have hv : x.vertices = φ m'.vertices := by
    rw [hmx.vertices, h.vertices, (hφ.flatten _ ?_).1]
    · exact congrArg List.flatten hpv
    · intro l hl
      obtain ⟨i, hi⟩ := List.mem_iff_getElem?.1 hl
      rw [List.getElem?_zipWith] at hi
      rcases h1 : m.mats[i]? with _ | a
      · rw [h1] at hi; simp at hi
      rcases h2 : o.mats[i]? with _ | b
      · rw [h1, h2] at hi; simp at hi
      rw [h1, h2] at hi
      simp only [Option.some.injEq] at hi
      subst hi
      rw [(pairVerts_length (tm.inside a (List.mem_of_getElem? h1))
        (tv.inside b (List.mem_of_getElem? h2))).2]
      exact Nat.dvd_mul_left _ _
  have hg : x.geoms = m'.geoms := by
    apply geoms_ext
    · rw [hmx.shape, h.shape]
    · exact hmx.mats.trans h.mats.symm
  rw [hmx.rest, h.rest]
  simp only [hg, hv, hmx.index, h.index, hmx.vertnum, h.vertnum, hmx.indexnum, h.indexnum]
  rfl

/-! ## Orders after orders, and orders of merged meshes -/

theorem picked_bind {α : Type} {l : List α} {js : List Nat} (h : ∀ j ∈ js, j < l.length) (k : Nat) :
    (js.filterMap fun j => l[j]?)[k]? = js[k]?.bind fun j => l[j]? := by
  induction js generalizing k with
  | nil => simp
  | cons j js ih =>
    have hj := h j (by simp)
    rw [List.filterMap_cons_some (List.getElem?_eq_getElem hj)]
    cases k with
    | zero => simp [hj]
    | succ k => simpa using ih (fun i hi => h i (by simp [hi])) k

theorem Permutes.lt {n : Nat} {order : List Int} {js : List Nat} (h : Permutes n order js) :
    ∀ j ∈ js, j < n := fun _ hj => List.mem_range.1 (h.perm.mem_iff.1 hj)

theorem Permutes.length {n : Nat} {order : List Int} {js : List Nat} (h : Permutes n order js) :
    js.length = n := by rw [h.perm.length_eq, List.length_range]

/-- `js''` picks from the original what `js'` picks from what `js` picked. -/
theorem picked_picked {α : Type} {l : List α} {order order' order'' : List Int}
    {js js' js'' : List Nat} (h : Permutes l.length order js) (h' : Permutes l.length order' js')
    (h'' : Permutes l.length order'' js'')
    (hc : ∀ (k j : Nat), js'[k]? = some j → js''[k]? = js[j]?) :
    (js'.filterMap fun j => (js.filterMap fun j => l[j]?)[j]?) = js''.filterMap fun j => l[j]? := by
  apply List.ext_getElem?
  intro k
  have hlen : (js.filterMap fun j => l[j]?).length = l.length := (permutes_picked h).length_eq
  rw [picked_bind (by rw [hlen]; exact h'.lt), picked_bind h''.lt]
  rcases hk : js'[k]? with _ | j
  · have : js''[k]? = none := by
      rw [List.getElem?_eq_none_iff] at hk ⊢
      rw [h''.length]; rw [h'.length] at hk; exact hk
    rw [this]; rfl
  · rw [hc k j hk]
    simp only [Option.bind_some]
    rw [picked_bind h.lt]

theorem reorder_compose {vs : Nat} {m : Mesh F} {ix : List Int} {order order' order'' : List Int}
    {js js' js'' : List Nat} (hin : Inside vs m) (hix : m.index = .many ix)
    (hb : (m.mats.map Mat.vnum).sum ≤ 2 ^ 53) (h : Permutes m.geoms.length order js)
    (h' : Permutes m.geoms.length order' js') (h'' : Permutes m.geoms.length order'' js'')
    (hc : ∀ (k j : Nat), js'[k]? = some j → js''[k]? = js[j]?) :
    ∃ m' x, changeGeomsOrder m order = (m', none) ∧ changeGeomsOrder m' order' = (x, none) ∧
      changeGeomsOrder m order'' = (x, none) := by
  obtain ⟨m', h1, hp1, hk1, hs1, hv1, hi1⟩ := changeGeomsOrder_picked hin hix hb h
  have hlen : m'.geoms.length = m.geoms.length := by
    rw [← hk1.length_eq]; exact (permutes_picked h).length_eq
  obtain ⟨x, h2, hp2, -⟩ := changeGeomsOrder_picked (hv1.inside' hi1) hp1.index
    (by rw [hs1]; exact hb) (hlen ▸ h')
  obtain ⟨y, h3, hp3, -⟩ := changeGeomsOrder_picked hin hix hb h''
  refine ⟨m', x, h1, h2, ?_⟩
  rw [h3]
  congr 1
  refine hp3.unique hp2 hp1.rest ?_
  have := picked_forall₂ hk1 js'
  rw [picked_picked h h' h'' hc] at this
  exact this.imp fun g g' hg => ⟨hg.shape, hg.mats⟩

theorem zip_flatMap {α β γ δ : Type} {f : γ → List α} {g : δ → List β} {l : List γ} {r : List δ}
    (h : List.Forall₂ (fun c d => (f c).length = (g d).length) l r) :
    (l.flatMap f).zip (r.flatMap g) = (l.zip r).flatMap fun p => (f p.1).zip (g p.2) := by
  induction h with
  | nil => rfl
  | cons hcd _ ih =>
    rw [List.flatMap_cons, List.flatMap_cons, List.zip_append hcd, ih, List.zip_cons_cons,
      List.flatMap_cons]

theorem picked_zip {α β : Type} {l : List α} {r : List β} (h : l.length = r.length)
    (js : List Nat) :
    (js.filterMap fun j => (l.zip r)[j]?) =
      (js.filterMap fun j => l[j]?).zip (js.filterMap fun j => r[j]?) := by
  induction js with
  | nil => rfl
  | cons j js ih =>
    rcases hl : l[j]? with _ | a
    · have hr : r[j]? = none := by
        rw [List.getElem?_eq_none_iff] at hl ⊢; omega
      have hz : (l.zip r)[j]? = none := by
        rw [List.getElem?_eq_none_iff] at hl ⊢; rw [List.length_zip]; omega
      rw [List.filterMap_cons_none hl, List.filterMap_cons_none hr, List.filterMap_cons_none hz, ih]
    · have hj := (List.getElem?_eq_some_iff.1 hl).1
      have hr : r[j]? = some r[j] := List.getElem?_eq_getElem (by omega)
      have hz : (l.zip r)[j]? = some (a, r[j]) := by
        rw [List.zip, List.getElem?_zipWith, hl, hr]
      rw [List.filterMap_cons_some hl, List.filterMap_cons_some hr, List.filterMap_cons_some hz, ih,
        List.zip_cons_cons]

theorem Compatible.lengths {m o : Mesh F} (h : Compatible m o) :
    List.Forall₂ (fun g k : Geom F => g.mats.length = k.mats.length) m.geoms o.geoms :=
  h.geoms.imp fun g k hg => (forall₂_flatten hg : List.Forall₂ MatAgree g.mats k.mats).length_eq

/-- Merged materials, geom by geom. -/
theorem Merged.geoms {vs : Nat} {m o m' : Mesh F} (h : Merged vs m o m') (hc : Compatible m o)
    (hm : Inside vs m) (ho : Inside vs o) :
    List.Forall₂ (fun (p : Geom F × Geom F) g' => g'.shape = p.1.shape ∧
      List.Forall₂ (fun (q : Mat F × Mat F) a' => MatMerged vs m o m' q.1 q.2 a')
        (p.1.mats.zip p.2.mats) g'.mats) (m.geoms.zip o.geoms) m'.geoms := by
  have hglen : m'.geoms.length = m.geoms.length := by
    have := congrArg List.length h.shape; simpa using this
  have hshape : List.Forall₂ (fun (p : Geom F × Geom F) (g' : Geom F) => g'.shape = p.1.shape)
      (m.geoms.zip o.geoms) m'.geoms := by
    apply forall₂_of_getElem?
    · rw [List.length_zip, ← hc.geoms.length_eq, hglen]; omega
    · intro i p g' hp hg'
      have hp1 : m.geoms[i]? = some p.1 := by
        rw [List.getElem?_zip_eq_some] at hp; exact hp.1
      have := congrArg (fun l => l[i]?) h.shape
      simp only [List.getElem?_map, hp1, hg', Option.map_some, Option.some.injEq] at this
      exact this
  have hflat : List.Forall₂ (fun (q : Mat F × Mat F) a' => MatMerged vs m o m' q.1 q.2 a')
      (m.mats.zip o.mats) m'.mats := by
    apply forall₂_of_getElem?
    · rw [List.length_zip, ← hc.mats_length, h.length hc]; omega
    · intro i q a' hq ha'
      rw [List.getElem?_zip_eq_some] at hq
      obtain ⟨a1, h1, h2⟩ := h.mat hm ho hq.1 hq.2
      rw [ha'] at h1
      cases h1
      exact h2
  have hz : m.mats.zip o.mats = (m.geoms.zip o.geoms).flatMap fun p => p.1.mats.zip p.2.mats :=
    zip_flatMap hc.lengths
  rw [hz] at hflat
  have hlen : List.Forall₂ (fun (p : Geom F × Geom F) (g' : Geom F) =>
      (p.1.mats.zip p.2.mats).length = g'.mats.length) (m.geoms.zip o.geoms) m'.geoms := by
    apply forall₂_of_getElem?
    · exact hshape.length_eq
    · intro i p g' hp hg'
      obtain ⟨g1, hg1, hs⟩ := forall₂_getElem? hshape hp
      rw [hg'] at hg1
      cases hg1
      rw [List.getElem?_zip_eq_some] at hp
      obtain ⟨k, hk, hl⟩ := forall₂_getElem? hc.lengths hp.1
      rw [hp.2] at hk
      cases hk
      rw [List.length_zip, ← hl, Nat.min_self, shape_mats_length hs]
  exact (forall₂_and hshape (forall₂_flatMap hlen hflat)).imp fun _ _ h => h

theorem zipWith_eq_map_zip {α β γ : Type} (f : α → β → γ) (l : List α) (r : List β) :
    List.zipWith f l r = (l.zip r).map fun p => f p.1 p.2 := by
  rw [List.zip, List.map_zipWith]

theorem forall₂_zip {α β γ δ : Type} {R : α → β → Prop} {S : γ → δ → Prop} {l : List α} {r : List β}
    {l' : List γ} {r' : List δ} (h : List.Forall₂ R l r) (h' : List.Forall₂ S l' r') :
    List.Forall₂ (fun p q => R p.1 q.1 ∧ S p.2 q.2) (l.zip l') (r.zip r') := by
  induction h generalizing l' r' with
  | nil => exact .nil
  | cons hab _ ih =>
    cases h' with
    | nil => exact .nil
    | cons hcd ht => exact .cons ⟨hab, hcd⟩ (ih ht)

/-- Compatibility depends on the fields of the materials only. -/
theorem compatible_picked {vs : Nat} {m o m1 o1 : Mesh F} {js : List Nat} (hc : Compatible m o)
    (hm : List.Forall₂ (GeomKept vs m m1) (js.filterMap fun j => m.geoms[j]?) m1.geoms)
    (ho : List.Forall₂ (GeomKept vs o o1) (js.filterMap fun j => o.geoms[j]?) o1.geoms)
    (hmv : m1.vattrs = m.vattrs) (hov : o1.vattrs = o.vattrs) : Compatible m1 o1 := by
  refine ⟨?_, by rw [hmv, hov]; exact hc.vattrs⟩
  have key : ∀ {v : Nat} {a b : Mesh F} {g g' : Geom F}, GeomKept v a b g g' →
      List.Forall₂ (fun l l' : Lod F => List.Forall₂ MatAgree l.materials l'.materials)
        g.lods g'.lods := by
    intro v a b g g' hk
    have hs := hk.shape
    unfold Geom.shape at hs
    rw [Prod.mk.injEq] at hs
    have hlen : List.Forall₂ (fun l l' : Lod F => l.materials.length = l'.materials.length)
        g.lods g'.lods := by
      apply forall₂_of_getElem?
      · have := congrArg List.length hs.2; simpa using this.symm
      · intro i l l' hl hl'
        have := congrArg (fun l => l[i]?) hs.2
        simp only [List.getElem?_map, hl, hl', Option.map_some, Option.some.injEq,
          Prod.mk.injEq] at this
        exact this.2.symm
    refine forall₂_flatMap hlen ?_
    exact hk.mats.imp fun a a' h => by
      rw [h.fields]
      exact ⟨rfl, rfl, rfl, rfl⟩
  have sym : ∀ {l l' : List (Lod F)},
      List.Forall₂ (fun l l' : Lod F => List.Forall₂ MatAgree l.materials l'.materials) l l' →
      List.Forall₂ (fun l l' : Lod F => List.Forall₂ MatAgree l.materials l'.materials) l' l :=
    fun h => (h.imp fun l k hl => (hl.imp fun a b hab => (⟨hab.alphamode.symm, hab.fxfile.symm,
      hab.technique.symm, hab.maps.symm⟩ : MatAgree b a)).flip).flip
  have trans : ∀ {l l' l'' : List (Lod F)},
      List.Forall₂ (fun l l' : Lod F => List.Forall₂ MatAgree l.materials l'.materials) l l' →
      List.Forall₂ (fun l l' : Lod F => List.Forall₂ MatAgree l.materials l'.materials) l' l'' →
      List.Forall₂ (fun l l' : Lod F => List.Forall₂ MatAgree l.materials l'.materials) l l'' :=
    fun h h' => (h.trans_rel h').imp fun _ _ ⟨_, h3, h4⟩ =>
      (h3.trans_rel h4).imp fun _ _ ⟨_, h5, h6⟩ =>
        ⟨h5.alphamode.trans h6.alphamode, h5.fxfile.trans h6.fxfile,
          h5.technique.trans h6.technique, h5.maps.trans h6.maps⟩
  have h1 := picked_forall₂ hc.geoms js
  have h2 : List.Forall₂ (fun g' g : Geom F =>
      List.Forall₂ (fun l l' : Lod F => List.Forall₂ MatAgree l.materials l'.materials)
        g'.lods g.lods) m1.geoms (js.filterMap fun j => m.geoms[j]?) :=
    (hm.imp fun g g' h => sym (key h)).flip
  exact ((h2.trans_rel h1).trans_rel ho).imp fun g g' ⟨k, ⟨j, e1, e2⟩, e3⟩ =>
    trans (trans e1 e2) (key e3)

/-- Reordering distributes over merging. -/
theorem reorder_merge {vs : Nat} {m o m' : Mesh F} {ix ox : List Int} {order : List Int}
    {js : List Nat} (hm : Inside vs m) (ho : Inside vs o) (hix : m.index = .many ix)
    (hox : o.index = .many ox) (hbm : (m.mats.map Mat.vnum).sum + (o.mats.map Mat.vnum).sum ≤ 2 ^ 53)
    (hp : Permutes m.geoms.length order js) (ok : merge m o = (m', .ok .done)) :
    ∃ m1 o1 x, changeGeomsOrder m order = (m1, none) ∧ changeGeomsOrder o order = (o1, none) ∧
      merge m1 o1 = (x, .ok .done) ∧ changeGeomsOrder m' order = (x, none) := by
  obtain ⟨hc, hno, h⟩ := merge_done hm ho hix hox ok
  obtain ⟨t1, t2⟩ := h.tiled hm ho
  have hlo : o.geoms.length = m.geoms.length := hc.geoms.length_eq.symm
  have hlm' : m'.geoms.length = m.geoms.length := by
    have := congrArg List.length h.shape; simpa using this
  have hn1 := sum_nonneg (l := m.mats) (f := Mat.vnum) fun a ha => (hm.verts a ha).2.1
  have hn2 := sum_nonneg (l := o.mats) (f := Mat.vnum) fun a ha => (ho.verts a ha).2.1
  obtain ⟨m1, e1, p1, k1, -, v1, i1⟩ := changeGeomsOrder_picked hm hix (by omega) hp
  obtain ⟨o1, e2, p2, k2, -, v2, i2⟩ := changeGeomsOrder_picked ho hox (by omega) (hlo.symm ▸ hp)
  have hsum : ∀ (l r : List (Mat F)), l.length = r.length →
      ((List.zipWith addCounts l r).map Mat.vnum).sum =
        (l.map Mat.vnum).sum + (r.map Mat.vnum).sum := by
    intro l
    induction l with
    | nil => intro r hr; cases r with
      | nil => rfl
      | cons => simp at hr
    | cons a l ih =>
      intro r hr
      cases r with
      | nil => simp at hr
      | cons b r =>
        have := ih r (by simpa using hr)
        simp only [List.zipWith_cons_cons, List.map_cons, List.sum_cons, this, addCounts]
        omega
  have hb' : (m'.mats.map Mat.vnum).sum ≤ 2 ^ 53 := by
    rw [h.mats, retile_vnum, hsum _ _ hc.mats_length]; exact hbm
  obtain ⟨x, e3, p3, k3, s3, v3, i3⟩ := changeGeomsOrder_picked (t1.inside' t2) h.index hb'
    (hlm'.symm ▸ hp)
  have hmv : m1.vattrs = m.vattrs := by rw [p1.rest]
  have hov : o1.vattrs = o.vattrs := by rw [p2.rest]
  have hc1 : Compatible m1 o1 := compatible_picked hc k1 k2 hmv hov
  have f1 : List.Forall₂ (MatKept vs m m1) _ m1.mats :=
    forall₂_flatten (f := Geom.mats) (g := Geom.mats) (k1.imp fun g g' h => h.mats)
  have f2 : List.Forall₂ (MatKept vs o o1) _ o1.mats :=
    forall₂_flatten (f := Geom.mats) (g := Geom.mats) (k2.imp fun g g' h => h.mats)
  have hgl : List.Forall₂ (fun g k : Geom F => g.mats.length = k.mats.length)
      (js.filterMap fun j => m.geoms[j]?) (js.filterMap fun j => o.geoms[j]?) :=
    picked_forall₂ hc.lengths js
  have hz := zip_flatMap hgl
  rw [← picked_zip hlo.symm] at hz
  have fz := forall₂_zip f1 f2
  rw [hz] at fz
  have fm : List.Forall₂ (fun (q : Mat F × Mat F) a' => MatMerged vs m o m' q.1 q.2 a')
      ((js.filterMap fun j => (m.geoms.zip o.geoms)[j]?).flatMap fun p => p.1.mats.zip p.2.mats)
      ((js.filterMap fun j => m'.geoms[j]?).flatMap Geom.mats) :=
    forall₂_flatten ((picked_forall₂ (h.geoms hc hm ho) js).imp fun p g' h => h.2)
  have hmem : ∀ q ∈ ((js.filterMap fun j => (m.geoms.zip o.geoms)[j]?).flatMap
      fun p => p.1.mats.zip p.2.mats), ∃ i : Nat, m.mats[i]? = some q.1 ∧ o.mats[i]? = some q.2 := by
    intro q hq
    obtain ⟨p, hp', hq⟩ := List.mem_flatMap.1 hq
    obtain ⟨j, -, hj⟩ := List.mem_filterMap.1 hp'
    have : q ∈ m.mats.zip o.mats := by
      rw [show m.mats.zip o.mats = _ from zip_flatMap hc.lengths]
      exact List.mem_flatMap.2 ⟨p, List.mem_of_getElem? hj, hq⟩
    obtain ⟨i, hi⟩ := List.mem_iff_getElem?.1 this
    rw [List.getElem?_zip_eq_some] at hi
    exact ⟨i, hi⟩
  have hno1 : ¬ Overflows m1 o1 := by
    rintro ⟨i, a, b, v, ha, hb, hv, hlt⟩
    have hq : (m1.mats.zip o1.mats)[i]? = some (a, b) := by
      rw [List.getElem?_zip_eq_some]; exact ⟨ha, hb⟩
    obtain ⟨q, hq', hr⟩ := forall₂_getElem? fz.flip hq
    obtain ⟨j, hj1, hj2⟩ := hmem q (List.mem_of_getElem? hq')
    refine hno ⟨j, q.1, q.2, v, hj1, hj2, ?_, ?_⟩
    · rw [← hr.2.index]; exact hv
    · have := hr.1.fields
      simp only at this
      rw [this] at hlt
      exact hlt
  obtain ⟨y, e4, h4⟩ := merge_ok hc1 (v1.inside' i1) (v2.inside' i2) p1.index p2.index hno1
  refine ⟨m1, o1, y, e1, e2, e4, ?_⟩
  rw [e3]
  congr 1
  have hboth := (fz.flip.trans_rel fm)
  have hgeoms : x.geoms = y.geoms := by
    apply geoms_ext
    · rw [p3.shape, h4.shape, p1.shape]
      have := h.shape
      have hpick : ∀ (l : List (Geom F)), (js.filterMap fun j => l[j]?).map Geom.shape =
          js.filterMap fun j => (l.map Geom.shape)[j]? := by
        intro l
        rw [List.map_filterMap]
        congr 1
        funext j
        rw [List.getElem?_map]
      rw [hpick, hpick, this]
    · refine p3.mats.trans (Eq.trans ?_ h4.mats.symm)
      rw [zipWith_eq_map_zip]
      refine retile_congr ?_
      rw [List.forall₂_map_left_iff]
      refine hboth.imp fun q a' ⟨p, hp1, hp2⟩ => ?_
      have e1 := hp1.1.fields
      have e2 := hp1.2.fields
      rw [hp2.fields, e1, e2]
      rfl
  have hver : x.vertices = y.vertices := by
    rw [p3.vertices, h4.vertices, zipWith_eq_map_zip, ← List.flatMap_def]
    refine forall₂_flatMap_eq hboth fun q a' ⟨p, hp1, hp2⟩ => ?_
    rw [hp2.verts, pairVerts, hp1.1.verts, hp1.2.verts]
  have hind : x.index = y.index := by
    rw [p3.index, h4.index, zipWith_eq_map_zip, ← List.flatMap_def]
    refine congrArg OneOrMany.many (forall₂_flatMap_eq hboth fun q a' ⟨p, hp1, hp2⟩ => ?_)
    rw [hp2.index, pairIndex, hp1.1.index, hp1.2.index, hp1.1.fields]
  have hvn : y.vertnum = m'.vertnum := by
    rw [h4.vertnum, h.vertnum]
    have a1 : ((List.zipWith addCounts m1.mats o1.mats).map Mat.vnum) = y.mats.map Mat.vnum := by
      rw [h4.mats, retile_vnum]
    have a2 : ((List.zipWith addCounts m.mats o.mats).map Mat.vnum) = m'.mats.map Mat.vnum := by
      rw [h.mats, retile_vnum]
    rw [a1, a2, ← s3]
    unfold Mesh.mats
    rw [hgeoms]
  have hin : y.indexnum = m'.indexnum := by
    rw [h4.indexnum, h.indexnum]
    have a1 : ((List.zipWith addCounts m1.mats o1.mats).map Mat.inum) = y.mats.map Mat.inum := by
      rw [h4.mats, retile_inum]
    have a2 : ((List.zipWith addCounts m.mats o.mats).map Mat.inum) = m'.mats.map Mat.inum := by
      rw [h.mats, retile_inum]
    rw [a1, a2]
    have : y.mats = x.mats := by unfold Mesh.mats; rw [hgeoms]
    rw [this, p3.mats, retile_inum]
    exact (((permutes_picked (l := m'.geoms) (hlm'.symm ▸ hp)).flatMap_right Geom.mats).map
      Mat.inum).sum_eq
  rw [p3.rest, h4.rest, p1.rest, h.rest]
  simp only [hgeoms, hver, hind, hvn, hin]

/-! ## Whole vertices from their parts -/

/-- Vertex arrays are equal if all vectors are and everything outside of vectors is. -/
theorem vertices_ext {vs n : Nat} {vf : Int} {attrs : List VAttr}
    (h3 : ∀ a ∈ attrs, VectorAttr a → a.vartype = 2 ∧ ∃ o, StartsAt vf a o ∧ o + 3 ≤ vs)
    {l l' : List F} (hl : l.length = n * vs) (hl' : l'.length = n * vs)
    (ho : ∀ v c, c < vs → (∀ a ∈ attrs, VectorAttr a → ∀ o, StartsAt vf a o → c < o ∨ o + 3 ≤ c) →
      l[v * vs + c]? = l'[v * vs + c]?)
    (hv : ∀ a ∈ attrs, VectorAttr a → ∀ o, StartsAt vf a o → ∀ v, v < n →
      vec3At l (v * vs + o) = vec3At l' (v * vs + o)) : l = l' := by
  apply List.ext_getElem?
  intro i
  rcases Nat.eq_zero_or_pos vs with rfl | hpos
  · rw [List.getElem?_eq_none (by omega), List.getElem?_eq_none (by omega)]
  rcases Nat.lt_or_ge i (n * vs) with hi | hi
  swap
  · rw [List.getElem?_eq_none (by omega), List.getElem?_eq_none (by omega)]
  have hiv : i / vs * vs + i % vs = i := Nat.div_add_mod' i vs
  have hc : i % vs < vs := Nat.mod_lt _ hpos
  have hvn : i / vs < n := Nat.div_lt_of_lt_mul (by rw [Nat.mul_comm]; exact hi)
  rw [← hiv]
  generalize i / vs = v at *
  generalize i % vs = c at *
  by_cases hcov : ∀ a ∈ attrs, VectorAttr a → ∀ o, StartsAt vf a o → c < o ∨ o + 3 ≤ c
  · exact ho v c hc hcov
  · simp only [not_forall, not_or, Nat.not_lt, Nat.not_le] at hcov
    obtain ⟨a, ha, hav, o, hos, h1, h2⟩ := hcov
    obtain ⟨-, o', ho', hov⟩ := h3 a ha hav
    obtain rfl := startsAt_unique hos ho'
    have hb : v * vs + o + 3 ≤ n * vs := by
      have : (v + 1) * vs ≤ n * vs := Nat.mul_le_mul_right _ hvn
      rw [Nat.succ_mul] at this
      omega
    have := hv a ha hav o hos v hvn
    unfold vec3At at this
    rw [List.getElem?_eq_getElem (l := l) (by omega), List.getElem?_eq_getElem (l := l) (by omega),
      List.getElem?_eq_getElem (l := l) (by omega), List.getElem?_eq_getElem (l := l') (by omega),
      List.getElem?_eq_getElem (l := l') (by omega),
      List.getElem?_eq_getElem (l := l') (by omega)] at this
    simp only [Option.some.injEq, Vec3.mk.injEq] at this
    rw [List.getElem?_eq_getElem (l := l) (by omega), List.getElem?_eq_getElem (l := l') (by omega)]
    congr 1
    rcases (by omega : c = o ∨ c = o + 1 ∨ c = o + 2) with rfl | rfl | rfl
    · exact this.1
    · exact this.2.1
    · exact this.2.2

theorem movedAll_getElem? [FArith F] {vs o : Nat} {d l : List F} {v c : Nat} (hc : c < vs) :
    (movedAll vs o d l)[v * vs + c]? = l[v * vs + c]?.map (moved o d c) := by
  unfold movedAll
  rw [List.getElem?_mapIdx, Nat.mul_add_mod_self_right, Nat.mod_eq_of_lt hc]

theorem vec3At_moved [FArith F] {vs o : Nat} {x y z : F} {l : List F} {v : Nat} (h : o + 3 ≤ vs) :
    vec3At (movedAll vs o [x, y, z] l) (v * vs + o) = (vec3At l (v * vs + o)).map fun p =>
      ⟨FArith.add p.x x, FArith.add p.y y, FArith.add p.z z⟩ := by
  unfold vec3At
  rw [movedAll_getElem? (by omega), Nat.add_assoc, Nat.add_assoc, movedAll_getElem? (by omega),
    movedAll_getElem? (by omega)]
  cases l[v * vs + o]? <;> cases l[v * vs + (o + 1)]? <;> cases l[v * vs + (o + 2)]? <;>
    simp [moved]

theorem vec3At_unmoved [FArith F] {vs o p : Nat} {x y z : F} {l : List F} {v : Nat}
    (h : p + 3 ≤ vs) (hap : o + 3 ≤ p ∨ p + 3 ≤ o) :
    vec3At (movedAll vs o [x, y, z] l) (v * vs + p) = vec3At l (v * vs + p) := by
  have key : ∀ c, p ≤ c → c < p + 3 → (movedAll vs o [x, y, z] l)[v * vs + c]? = l[v * vs + c]? := by
    intro c h1 h2
    rw [movedAll_getElem? (by omega)]
    have : moved o [x, y, z] c = id := by
      funext t
      unfold moved
      split
      · rw [List.getElem?_eq_none (by simp; omega)]; rfl
      · rfl
    rw [this, Option.map_id]; rfl
  unfold vec3At
  rw [key p (by omega) (by omega), Nat.add_assoc, Nat.add_assoc, key (p + 1) (by omega) (by omega),
    key (p + 2) (by omega) (by omega)]

theorem pairwise_pair {α : Type} {R : α → α → Prop} {l : List α} (h : l.Pairwise R) {a b : α}
    (ha : a ∈ l) (hb : b ∈ l) (hab : a ≠ b) : R a b ∨ R b a := by
  induction h with
  | nil => simp at ha
  | cons hx _ ih =>
    rw [List.mem_cons] at ha hb
    rcases ha with rfl | ha <;> rcases hb with rfl | hb
    · exact absurd rfl hab
    · exact .inl (hx _ hb)
    · exact .inr (hx _ ha)
    · exact ih ha hb

end Bf2
