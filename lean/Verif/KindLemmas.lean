import Verif.Props.Format
import Verif.KindSpec

/-! # Lemmas for C125: a file opened as another kind -/

namespace Bf2

variable {F G : Type}

/-- The lods of a mesh, seen from a mapped mesh. -/
theorem MeshWF.lod_of_map {m : Mesh F} {f : F → G} (h : MeshWF (m.map f)) {g : Geom F}
    (hg : g ∈ m.geoms) {l : Lod F} (hl : l ∈ g.lods) :
    LodNodesWF m.kind m.head.version l ∧ LodMatsWF m.kind m.head.version l := by
  have hgm : g.map f ∈ (m.map f).geoms := List.mem_map.2 ⟨g, hg, rfl⟩
  have hlm : l.map f ∈ (g.map f).lods := List.mem_map.2 ⟨l, hl, rfl⟩
  have h1 : LodNodesWF m.kind m.head.version (l.map f) := (h.geom _ hgm).nodes _ hlm
  have h2 : LodMatsWF m.kind m.head.version (l.map f) := (h.geom _ hgm).mats _ hlm
  constructor
  · refine ⟨by simpa [Lod.map] using h1.1, by simpa [Lod.map] using h1.2, fun r hr => ?_, h1.4,
      by simpa [Lod.map] using h1.5, h1.6⟩
    simpa [Rig.map] using h1.3 (r.map f) (List.mem_map.2 ⟨r, hr, rfl⟩)
  · refine ⟨by simpa [Lod.map] using h2.1, fun a ha => ?_⟩
    have := h2.2 (a.map f) (List.mem_map.2 ⟨a, ha, rfl⟩)
    exact ⟨this.1, this.2, by simpa [Mat.map] using this.3, by simpa [Mat.map] using this.4⟩

theorem MatWF.rekind {k k' : Kind} {v : Int} {a : Mat F} (h : MatWF k v a)
    (hs : k'.isSkinned = k.isSkinned) : MatWF k' v a :=
  ⟨by rw [hs]; exact h.1, h.2, by rw [hs]; exact h.3, by rw [hs]; exact h.4⟩

theorem MeshWF.rekind {m : Mesh F} {k : Kind} (h : MeshWF m) (ha : KindAgrees m k) :
    MeshWF { m with kind := k } := by
  obtain ⟨hs, hb⟩ := ha
  refine ⟨h.1, fun g hg => ⟨(h.geom g hg).1, fun l hl => ?_, fun l hl => ?_⟩, h.3, h.4, h.5, h.6, h.7,
    fun hk => h.u2 (by rw [← hs]; exact hk)⟩
  · have hw := (h.geom g hg).nodes l hl
    refine ⟨hw.1, hw.2, hw.3, fun hk => hw.4 (by rw [← hs]; exact hk), ?_,
      fun hk => hw.6 (by rw [← hs]; exact hk)⟩
    have h5 := hw.5
    show l.nodes.length = if k.isSkinned || k.isBundled then 0 else l.nodenum.toNat
    rcases hb with hb | hb | hb
    · rw [← hs, hb] at h5
      rw [hb]
      exact h5
    · rw [← hs, ← hb] at h5
      exact h5
    · have := hb g hg l hl
      have h0 : l.nodenum.toNat = 0 := by omega
      rw [h0] at h5 ⊢
      simpa using h5
  · have hw := (h.geom g hg).mats l hl
    exact ⟨hw.1, fun a ha => (hw.2 a ha).rekind hs⟩

theorem exportLodNodes_rekind [FCodec F] {pl : Plat} {v : Int} {k k' : Kind} {l : Lod F}
    (hs : k'.isSkinned = k.isSkinned)
    (hb : k'.isSkinned = true ∨ k'.isBundled = k.isBundled ∨ l.nodes = []) :
    exportLodNodes pl v k' l = exportLodNodes pl v k l := by
  unfold exportLodNodes
  rw [hs]
  rcases hb with hb | hb | hb
  · rw [hs] at hb
    rw [if_pos hb, if_pos hb]
  · rw [hb]
  · rw [hb]
    have : ∀ c : Bool, (if c = true then Out.nil else Out.each (writeMatrix4 (F := F) pl) []) = .nil := by
      intro c; cases c <;> rfl
    rw [this, this]

theorem exportMat_rekind [FCodec F] {pl : Plat} {v : Int} {k k' : Kind} {a : Mat F}
    (hs : k'.isSkinned = k.isSkinned) : exportMat pl v k' a = exportMat pl v k a := by
  unfold exportMat
  rw [hs]

theorem exportMesh_rekind [FCodec F] {pl : Plat} {m : Mesh F} {k : Kind} (h : MeshWF m)
    (ha : KindAgrees m k) : exportMesh pl { m with kind := k } = exportMesh pl m := by
  obtain ⟨hs, hb⟩ := ha
  have h1 : Out.each (fun g => .each (exportLodNodes pl m.head.version k) g.lods) m.geoms =
      Out.each (fun g => .each (exportLodNodes pl m.head.version m.kind) g.lods) m.geoms := by
    refine each_congr fun g hg => each_congr fun l hl => exportLodNodes_rekind hs ?_
    rcases hb with hb | hb | hb
    · exact .inl hb
    · exact .inr (.inl hb)
    · refine .inr (.inr ?_)
      have := hb g hg l hl
      have h5 := ((h.geom g hg).nodes l hl).5
      have h0 : l.nodenum.toNat = 0 := by omega
      rw [h0] at h5
      exact List.eq_nil_of_length_eq_zero (by simpa using h5)
  have h2 : Out.each (fun g => .each (exportLodMaterials pl m.head.version k) g.lods) m.geoms =
      Out.each (fun g => .each (exportLodMaterials pl m.head.version m.kind) g.lods) m.geoms := by
    refine each_congr fun g hg => each_congr fun l hl => ?_
    unfold exportLodMaterials
    rw [each_congr fun a _ => exportMat_rekind hs]
  unfold exportMesh
  simp only
  rw [h1, h2, hs]

theorem all_middle {pre post : List Out} {a b : Out} {x y : Bytes}
    (h1 : Out.all (pre ++ a :: post) = ⟨x, none⟩) (h2 : Out.all (pre ++ b :: post) = ⟨y, none⟩)
    (h : x.length = y.length) :
    ∃ x' y', a = ⟨x', none⟩ ∧ b = ⟨y', none⟩ ∧ x'.length = y'.length := by
  induction pre generalizing x y with
  | nil =>
    rw [List.nil_append, Out.all] at h1 h2
    obtain ⟨b1, b2, hb1, hb2, rfl⟩ := Out.seq_ok.1 h1
    obtain ⟨c1, c2, hc1, hc2, rfl⟩ := Out.seq_ok.1 h2
    rw [hb2] at hc2
    cases hc2
    exact ⟨b1, c1, hb1, hc1, by simpa using h⟩
  | cons p pre ih =>
    rw [List.cons_append, Out.all] at h1 h2
    obtain ⟨b1, b2, hb1, hb2, rfl⟩ := Out.seq_ok.1 h1
    obtain ⟨c1, c2, hc1, hc2, rfl⟩ := Out.seq_ok.1 h2
    rw [hb1] at hc1
    cases hc1
    exact ih hb2 hc2 (by simpa using h)

/-- What is written before `u2`. -/
def beforeU2 [FCodec F] (pl : Plat) (m : Mesh F) : List Out :=
  [exportHead pl m.head, writeByte m.u1,
    writeLong pl m.geomnum, .each (fun g => writeLong pl g.lodnum) m.geoms,
    writeLong pl m.vertattribnum, .each (exportVAttr pl) m.vattrs,
    writeLong pl m.vertformat, writeLong pl m.vertstride, writeLong pl m.vertnum,
    .each (writeFloat pl) m.vertices,
    writeLong pl m.indexnum, exportIndex pl m.index]

theorem exportMesh_split [FCodec F] (pl : Plat) (m : Mesh F) (k : Kind) :
    exportMesh pl { m with kind := k } = .all (beforeU2 pl m ++
      (if k.isSkinned then .nil else writeLong pl m.u2) ::
      [.each (fun g => .each (exportLodNodes pl m.head.version k) g.lods) m.geoms,
        .each (fun g => .each (exportLodMaterials pl m.head.version k) g.lods) m.geoms]) := by
  unfold exportMesh beforeU2
  simp only [List.cons_append, List.nil_append]

/-- Skinned and not skinned: the written files never have the same length. -/
theorem exportMesh_skinned {pl : Plat} {m : Mesh F} [FCodec F] {k : Kind} (h : MeshWF m)
    {f : F → G} (h' : MeshWF (({ m with kind := k } : Mesh F).map f))
    (hs : k.isSkinned ≠ m.kind.isSkinned) {x y : Bytes} (hx : exportMesh pl m = ⟨x, none⟩)
    (hy : exportMesh pl { m with kind := k } = ⟨y, none⟩) : x.length ≠ y.length := by
  have hlod : ∀ g ∈ m.geoms, ∀ l ∈ g.lods, l.materials = [] ∧ l.nodes = [] ∧ l.rigs = [] ∧
      l.rignum = l.nodenum := by
    intro g hg l hl
    obtain ⟨n', t'⟩ := h'.lod_of_map (m := { m with kind := k }) hg hl
    have n := (h.geom g hg).nodes l hl
    have t := (h.geom g hg).mats l hl
    simp only at n' t'
    have hz : l.rignum = 0 ∧ l.nodenum = 0 := by
      cases hk : k.isSkinned <;> cases hk' : m.kind.isSkinned
      · exact absurd (hk.trans hk'.symm) hs
      · exact ⟨n'.4 hk, n.6 hk'⟩
      · exact ⟨n.4 hk', n'.6 hk⟩
      · exact absurd (hk.trans hk'.symm) hs
    refine ⟨?_, List.eq_nil_of_length_eq_zero ?_, List.eq_nil_of_length_eq_zero ?_, ?_⟩
    · rcases hm : l.materials with _ | ⟨a, as⟩
      · rfl
      · have h1 := (t.2 a (by simp [hm])).1
        have h2 := (t'.2 a (by simp [hm])).1
        rw [h1] at h2
        exact absurd (by simpa using h2.symm) hs
    · rw [n.5, hz.2]; simp
    · rw [n.2, hz.1]; rfl
    · rw [hz.1, hz.2]
  have h1 : Out.each (fun g => .each (exportLodNodes pl m.head.version k) g.lods) m.geoms =
      Out.each (fun g => .each (exportLodNodes pl m.head.version m.kind) g.lods) m.geoms := by
    refine each_congr fun g hg => each_congr fun l hl => ?_
    obtain ⟨-, h2, h3, h4⟩ := hlod g hg l hl
    unfold exportLodNodes
    rw [h2, h3, h4]
    have : ∀ c d : Bool, (if c = true then Out.all [writeLong pl l.nodenum, .each (exportRig (F := F) pl) []]
        else .all [writeLong pl l.nodenum,
          if d = true then .nil else .each (writeMatrix4 (F := F) pl) []]) = writeLong pl l.nodenum := by
      intro c d
      cases c <;> cases d <;> simp [Out.all, Out.each]
    rw [this, this]
  have h2 : Out.each (fun g => .each (exportLodMaterials pl m.head.version k) g.lods) m.geoms =
      Out.each (fun g => .each (exportLodMaterials pl m.head.version m.kind) g.lods) m.geoms := by
    refine each_congr fun g hg => each_congr fun l hl => ?_
    unfold exportLodMaterials
    rw [(hlod g hg l hl).1, Out.each, Out.each]
  have hx' := exportMesh_split pl m m.kind
  rw [show ({ m with kind := m.kind } : Mesh F) = m from rfl, hx] at hx'
  rw [exportMesh_split, h1, h2] at hy
  intro hlen
  obtain ⟨b1, c1, hb1, hc1, hl⟩ := all_middle hx'.symm hy hlen
  have hlong : ∀ {u : Int} {z : Bytes}, writeLong pl u = ⟨z, none⟩ → z.length ≠ 0 := by
    intro u z hz
    unfold writeLong at hz
    split at hz
    · rw [Out.write_ok] at hz
      subst hz
      rw [Plat.enc_length]
      rcases pl.longSize_cases with h | h <;> omega
    · cases hz
  cases hk : k.isSkinned <;> cases hk' : m.kind.isSkinned
  · exact absurd (hk.trans hk'.symm) hs
  · rw [hk'] at hb1
    rw [hk] at hc1
    cases hb1
    exact hlong hc1 hl.symm
  · rw [hk'] at hb1
    rw [hk] at hc1
    cases hc1
    exact hlong hb1 hl
  · exact absurd (hk.trans hk'.symm) hs

end Bf2
