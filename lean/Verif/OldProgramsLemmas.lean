import Verif.OldProgramsSpec
import Verif.Props.OldScripts
import Verif.Props.OldHistory
import Verif.EqualLemmas

/-!
# Lemmas about the scripts of `/repo/deprecated`
-/

namespace Bf2

variable {F : Type}

/-! ## Removing texture coordinates -/

theorem OneFloat2.removed {attrs attrs' : List VAttr} {u u' : Int} {j : Nat} {a : VAttr}
    (ha : attrs[j]? = some a) (hau : a.usage = u) (hj : j ≠ 0) (ne : u' ≠ u)
    (same : List.Forall₂ SameAttr (attrs.eraseIdx j) attrs') (h : OneFloat2 attrs u') :
    OneFloat2 attrs' u' := by
  obtain ⟨k, b, hb, hk, hf, hu, ht, only⟩ := h
  have hkj : k ≠ j := by
    rintro rfl
    rw [ha] at hb
    injection hb with hb
    exact ne (by rw [← hu, ← hb, hau])
  have key : ∃ k', k' ≠ 0 ∧ (attrs.eraseIdx j)[k']? = some b ∧
      ∀ i c, (attrs.eraseIdx j)[i]? = some c → c.usage = u' → i = k' := by
    refine ⟨if k < j then k else k - 1, by split_ifs <;> omega, ?_, fun i c hc hcu => ?_⟩
    · rw [List.getElem?_eraseIdx]
      by_cases h1 : k < j
      · rw [if_pos h1, if_pos h1]; exact hb
      · rw [if_neg h1, if_neg (by omega), show k - 1 + 1 = k by omega]; exact hb
    · rw [List.getElem?_eraseIdx] at hc
      split_ifs at hc with h1
      · have := only i c hc hcu
        subst this
        rw [if_pos h1]
      · have := only (i + 1) c hc hcu
        subst this
        rw [if_neg (by omega)]
        omega
  obtain ⟨k', hk', hb', only'⟩ := key
  obtain ⟨b', hb2, e⟩ := forall₂_getElem? same hb'
  refine ⟨k', b', hb2, hk', by rw [e]; exact hf, by rw [e]; exact hu, by rw [e]; exact ht, ?_⟩
  intro i c hc hcu
  obtain ⟨c', hc', e'⟩ := forall₂_getElem? same.flip hc
  have e'' : SameAttr c' c := e'
  exact only' i c' hc' (by rw [← hcu, e''])

/-- A table with two FLOAT2 entries has vertices of at least four floats. -/
theorem Packs.room {vf : Int} {vs p : Nat} {attrs : List VAttr} (h : Packs vf vs p attrs) {a : VAttr}
    {n : Nat} (ha : a ∈ attrs) (used : a.flag ≠ 255) (floats : oldFloats a.vartype = some n) :
    p + n ≤ vs := by
  induction h with
  | done => simp at ha
  | unused hf _ ih =>
    rcases List.mem_cons.1 ha with rfl | ha
    · exact absurd hf used
    · exact ih ha
  | used hf hn _ h ih =>
    rcases List.mem_cons.1 ha with rfl | ha
    · rw [hn] at floats
      injection floats with e
      subst e
      exact h.le
    · have := ih ha
      omega

theorem removeUV {vs : Nat} {m : OldMesh F} (packed : Packed vs m) (list : m.vertsList = true)
    (editable : ∀ b ∈ m.vattrs, EditableAttr b) (parked : ∀ a ∈ m.vattrs, a.flag = 255 → a.offset = 0)
    {u : Int} (one : OneFloat2 m.vattrs u) (room : 2 < vs) :
    ∃ m', removeAttribute m u = (m', none) ∧
      m' = { m with
        vertattribnum := m.vattrs.length - 1, vattrs := m'.vattrs
        vertstride := m.vertstride - 2 * m.vertformat, vertices := m'.vertices } ∧
      m.vattrs.length = m'.vattrs.length + 1 ∧
      Packed (vs - 2) m' ∧ (∀ b ∈ m'.vattrs, EditableAttr b) ∧
      (∀ a ∈ m'.vattrs, a.flag = 255 → a.offset = 0) ∧
      (∀ u', u' ≠ u → OneFloat2 m.vattrs u' → OneFloat2 m'.vattrs u') ∧
      (∀ a' ∈ m'.vattrs, ∃ a ∈ m.vattrs, SameAttr a a' ∧
        (a'.offset = a.offset ∨ a'.offset = a.offset - 2 * m.vertformat)) ∧
      ∀ i : Nat, (i : Int) < m.vertnum →
        ∃ v, getVertex m i = .ok v ∧ getVertex m' i = .ok (v.drop u) := by
  obtain ⟨j, a, ha, hj, hf, rfl, ht, only⟩ := one
  obtain ⟨m', h1, h2, h3, h4, h5, h6⟩ := removeAttribute_table packed list editable ha hj hf
    (n := 2) (by rw [ht]; rfl) room only
  have from_ : ∀ a' ∈ m'.vattrs, ∃ a ∈ m.vattrs, SameAttr a a' ∧
      (a'.offset = a.offset ∨ a'.offset = a.offset - 2 * m.vertformat) ∧
      (a.offset = 0 → a'.offset = 0) := by
    intro b hb
    rw [h6] at hb
    rcases List.mem_append.1 hb with hb | hb
    · exact ⟨b, List.mem_of_mem_take hb, rfl, .inl rfl, id⟩
    · obtain ⟨c, hc, rfl⟩ := List.mem_map.1 hb
      refine ⟨c, List.mem_of_mem_drop hc, movedEntry_fields _ _ c, ?_, fun h0 => ?_⟩
      · unfold movedEntry
        split
        · exact .inr rfl
        · exact .inl rfl
      · unfold movedEntry
        rw [h0, intTrueDiv_exact packed.table.format (q := 0) (by simp) (by simp)]
        simp [h0]
  refine ⟨m', h1, by exact_mod_cast h2, ?_, h4, ?_, ?_, ?_, ?_, h5⟩
  · have hlt := (List.getElem?_eq_some_iff.1 ha).1
    rw [h6]
    simp
    omega
  · intro b hb
    obtain ⟨c, hc, e, -⟩ := from_ b hb
    have := editable c hc
    rw [e]
    exact this
  · intro b hb hb255
    obtain ⟨c, hc, e, -, h0⟩ := from_ b hb
    exact h0 (parked c hc (by rw [← hb255, e]))
  · intro u' hu' h
    exact h.removed ha rfl hj hu' h3
  · intro b hb
    obtain ⟨c, hc, e, h, -⟩ := from_ b hb
    exact ⟨c, hc, e, h⟩

theorem OneFloat2.mem {attrs : List VAttr} {u : Int} (h : OneFloat2 attrs u) :
    ∃ a ∈ attrs, a.flag ≠ 255 ∧ a.usage = u ∧ oldFloats a.vartype = some 2 ∧
      ∀ b ∈ attrs, b.usage = u → b = a := by
  obtain ⟨j, a, ha, -, hf, hu, ht, only⟩ := h
  refine ⟨a, List.mem_of_getElem? ha, hf, hu, by rw [ht]; rfl, fun b hb hbu => ?_⟩
  obtain ⟨k, hk⟩ := List.mem_iff_getElem?.1 hb
  have := only k b hk hbu
  subst this
  rw [ha] at hk
  injection hk with hk
  exact hk.symm

theorem OneFloat2.room {vf : Int} (hvf : vf ≠ 0) {vs : Nat} (small : vs ≤ 65535) {attrs : List VAttr}
    (h : Packs vf vs 0 attrs) {u u' : Int} (ne : u' ≠ u) (h1 : OneFloat2 attrs u)
    (h2 : OneFloat2 attrs u') : 2 < vs := by
  obtain ⟨a, ha, hf, hu, hn, -⟩ := h1.mem
  obtain ⟨b, hb, hf', hu', hn', -⟩ := h2.mem
  obtain ⟨B, A, rfl⟩ := List.append_of_mem ha
  obtain ⟨o, -, -, h3, h4⟩ := h.removed hvf small hf hn
  have hb' : ∃ b' ∈ B ++ A.map (movedEntry vf (2 * vf)), b'.flag ≠ 255 ∧ oldFloats b'.vartype = some 2 := by
    have hmem : b ∈ B ∨ b ∈ A := by
      rcases List.mem_append.1 hb with hb | hb
      · exact .inl hb
      · rcases List.mem_cons.1 hb with rfl | hb
        · exact absurd (hu'.symm.trans hu) ne
        · exact .inr hb
    rcases hmem with hb | hb
    · exact ⟨b, by simp [hb], hf', hn'⟩
    · refine ⟨movedEntry vf (2 * vf) b, List.mem_append_right _ (List.mem_map_of_mem hb), ?_, ?_⟩
      · rw [movedEntry_fields]; exact hf'
      · rw [movedEntry_fields]; exact hn'
  obtain ⟨b', hb', hf'', hn''⟩ := hb'
  have := h4.room hb' hf'' hn''
  omega

/-! ## One vertex of a mesh -/

theorem Packs.offset {vf : Int} {vs p : Nat} {attrs : List VAttr} (h : Packs vf vs p attrs) {a : VAttr}
    {n : Nat} (ha : a ∈ attrs) (used : a.flag ≠ 255) (floats : oldFloats a.vartype = some n) :
    ∃ o : Nat, a.offset = vf * (p + o : Nat) ∧ p + o + n ≤ vs := by
  induction h with
  | done => simp at ha
  | unused hf _ ih =>
    rcases List.mem_cons.1 ha with rfl | ha
    · exact absurd hf used
    · exact ih ha
  | @used p k b as hf hn ho h ih =>
    rcases List.mem_cons.1 ha with rfl | ha
    · rw [hn] at floats
      injection floats with e
      subst e
      exact ⟨0, by simpa using ho, h.le⟩
    · obtain ⟨o, h1, h2⟩ := ih ha
      exact ⟨k + o, by rw [h1, Nat.add_assoc], by omega⟩

theorem Holds.edited {v : VObj F} {vf : Int} (hvf : vf ≠ 0) {vs p o : Nat} {attrs : List VAttr}
    {a : VAttr} {data w : List F} (h : Packs vf vs p attrs) (hd : (usedUsages attrs).Nodup)
    (ha : a ∈ attrs) (used : a.flag ≠ 255) (floats : oldFloats a.vartype = some data.length)
    (offset : a.offset = vf * (p + o : Nat)) (hw : Holds v attrs w) :
    Holds (v.set a.usage data) attrs (overwritten w o data) := by
  induction h generalizing o w with
  | done => simp at ha
  | unused hf _ ih =>
    rcases List.mem_cons.1 ha with rfl | ha
    · exact absurd hf used
    · cases hw with
      | used hf' => exact absurd hf hf'
      | unused _ hw =>
        exact .unused hf (ih (by simpa [usedUsages, hf] using hd) ha offset hw)
  | @used p k b as hf hn ho h ih =>
    cases hw with
    | unused hf' => exact absurd hf' hf
    | @used _ _ x w _ hx hv hw =>
      have hxk : x.length = k := by rw [hn] at hx; injection hx with hx; exact hx.symm
      have hu : usedUsages (b :: as) = b.usage :: usedUsages as := by simp [usedUsages, hf]
      rw [hu] at hd
      obtain ⟨hnot, hd⟩ := List.nodup_cons.1 hd
      rcases List.mem_cons.1 ha with rfl | ha
      · have h0 : o = 0 := by
          rw [ho] at offset
          have := mul_left_cancel₀ hvf offset
          omega
        subst h0
        have hlen : x.length = data.length := by
          rw [hx] at floats; injection floats
        have e : overwritten (x ++ w) 0 data = data ++ w := by
          unfold overwritten
          rw [← hlen]
          simp
        rw [e]
        refine .used hf floats (by simp [VObj.set]) (hw.congr fun u hu' => ?_)
        have : u ≠ a.usage := fun h => hnot (h ▸ hu')
        simp [VObj.set, this]
      · obtain ⟨o', h1, h2⟩ := h.offset ha used floats
        have e : o = k + o' := by
          rw [h1] at offset
          have := mul_left_cancel₀ hvf offset
          omega
        subst e
        have hne : b.usage ≠ a.usage := fun he => hnot (by
          rw [he]
          exact List.mem_map_of_mem (List.mem_filter.2 ⟨ha, by simpa using used⟩))
        have e : overwritten (x ++ w) (k + o') data = x ++ overwritten w o' data := by
          unfold overwritten
          rw [← hxk, List.take_length_add_append, Nat.add_assoc, List.drop_length_add_append]
          simp
        rw [e]
        exact .used hf hx (by simp [VObj.set, hne, hv]) (ih hd ha h1 hw)

/-- A vertex object is determined by the table and the floats of the vertex. -/
theorem getVertex_vert {vs : Nat} {m m' : OldMesh F}
    (hp : PackedTable vs m.vertformat m.vertstride m.vattrs) {i i' : Nat}
    (hlen : (i + 1) * vs ≤ m.vertices.length) (hlen' : (i' + 1) * vs ≤ m'.vertices.length)
    (h1 : m'.vertformat = m.vertformat) (h2 : m'.vertstride = m.vertstride)
    (h3 : m'.vattrs = m.vattrs) (h4 : vert vs m'.vertices i' = vert vs m.vertices i) :
    getVertex m' i' = getVertex m i := by
  obtain ⟨v, e, hv, hn⟩ := getVertex_full hp i hlen
  obtain ⟨v', e', hv', hn'⟩ := getVertex_full (m := m') (by rw [h1, h2, h3]; exact hp) i' hlen'
  rw [h3, h4] at hv'
  rw [h3] at hn'
  rw [e, e']
  congr 1
  funext u
  by_cases hu : u ∈ usedUsages m.vattrs
  · exact hv.unique hv' u hu
  · rw [hn u hu, hn' u hu]

theorem getVertex_edited {vs o i : Nat} {m : OldMesh F} {a : VAttr} {data : List F}
    (hp : PackedTable vs m.vertformat m.vertstride m.vattrs) (hlen : (i + 1) * vs ≤ m.vertices.length)
    (ha : a ∈ m.vattrs) (used : a.flag ≠ 255) (floats : oldFloats a.vartype = some data.length)
    (offset : a.offset = m.vertformat * (o : Nat)) (inside : o + data.length ≤ vs) {v : VObj F}
    (hv : getVertex m i = .ok v) :
    getVertex { m with vertices := overwritten m.vertices (i * vs + o) data } i =
      .ok (v.set a.usage data) := by
  have hov := (C97_other_vertices inside hlen).2
  obtain ⟨v0, e, hh, hn⟩ := getVertex_full hp i hlen
  rw [hv] at e
  injection e with e
  subst e
  have hl : (overwritten m.vertices (i * vs + o) data).length = m.vertices.length := by
    apply overwritten_length
    rw [Nat.add_mul, Nat.one_mul] at hlen
    omega
  obtain ⟨v', e', hh', hn'⟩ := getVertex_full
    (m := { m with vertices := overwritten m.vertices (i * vs + o) data }) hp i (by
      show _ ≤ (overwritten _ _ _).length
      rw [hl]; exact hlen)
  rw [e']
  congr 1
  change Holds v' m.vattrs (vert vs (overwritten m.vertices (i * vs + o) data) i) at hh'
  rw [hov] at hh'
  have h5 := (Holds.edited hp.format hp.packs hp.distinct ha used floats (o := o)
    (by rw [offset]; simp) hh).unique hh'
  funext u
  by_cases hu : u ∈ usedUsages m.vattrs
  · exact h5 u hu
  · have : u ≠ a.usage := fun h => hu (h ▸ List.mem_map_of_mem
      (List.mem_filter.2 ⟨ha, by simpa using used⟩))
    rw [hn' u hu, VObj.set]
    simp [this, hn u hu]

/-! ## The edits of `box_modify.py` -/

theorem Packs.multiple {vf : Int} {vs p : Nat} {attrs : List VAttr} (h : Packs vf vs p attrs) {a : VAttr}
    (ha : a ∈ attrs) (used : a.flag ≠ 255) : ∃ o : Nat, a.offset = vf * o := by
  induction h with
  | done => simp at ha
  | unused hf _ ih =>
    rcases List.mem_cons.1 ha with rfl | ha
    · exact absurd hf used
    · exact ih ha
  | used hf hn ho h ih =>
    rcases List.mem_cons.1 ha with rfl | ha
    · exact ⟨_, ho⟩
    · exact ih ha

/-- All fields of the entry fit signed 16-bit fields. -/
def SShortAttr (a : VAttr) : Prop :=
  IsSShort a.flag ∧ IsSShort a.offset ∧ IsSShort a.vartype ∧ IsSShort a.usage

/-- Less floats before it: the offset is nearer to 0. -/
theorem between {vf x y : Int} {o o' : Nat} (hx : x = vf * o) (hy : y = vf * o')
    (h : y = x ∨ y = x - 2 * vf) (hvf : vf ≠ 0) : (0 ≤ y ∧ y ≤ x) ∨ (x ≤ y ∧ y ≤ 0) := by
  rcases h with rfl | h
  · rcases le_total 0 vf with h0 | h0
    · left; rw [hx]; exact ⟨by positivity, le_rfl⟩
    · right; rw [hx]; exact ⟨le_rfl, mul_nonpos_of_nonpos_of_nonneg h0 (by positivity)⟩
  · have e : (o : Int) = o' + 2 := by
      have : vf * (o : Int) = vf * (o' + 2) := by rw [← hx]; linarith
      exact mul_left_cancel₀ hvf this
    rcases le_total 0 vf with h0 | h0
    · left; exact ⟨by rw [hy]; positivity, by linarith⟩
    · right; exact ⟨by linarith, by rw [hy]; exact mul_nonpos_of_nonpos_of_nonneg h0 (by positivity)⟩

theorem moved_sshort {vs : Nat} {m m' : OldMesh F} (packed : Packed vs m) (packed' : Packed (vs - 2) m')
    (format : m'.vertformat = m.vertformat)
    (parked' : ∀ a ∈ m'.vattrs, a.flag = 255 → a.offset = 0)
    (from_ : ∀ a' ∈ m'.vattrs, ∃ a ∈ m.vattrs, SameAttr a a' ∧
        (a'.offset = a.offset ∨ a'.offset = a.offset - 2 * m.vertformat))
    (h : ∀ a ∈ m.vattrs, SShortAttr a) : ∀ a ∈ m'.vattrs, SShortAttr a := by
  intro a' ha'
  obtain ⟨a, ha, e, hoff⟩ := from_ a' ha'
  obtain ⟨h1, h2, h3, h4⟩ := h a ha
  refine ⟨by rw [e]; exact h1, ?_, by rw [e]; exact h3, by rw [e]; exact h4⟩
  by_cases hf : a'.flag = 255
  · rw [parked' a' ha' hf]
    exact ⟨by decide, by decide⟩
  · obtain ⟨o', ho'⟩ := packed'.table.packs.multiple ha' hf
    obtain ⟨o, ho⟩ := packed.table.packs.multiple ha (fun h => hf (by rw [e]; exact h))
    rw [format] at ho'
    have := between ho ho' hoff packed.table.format
    unfold IsSShort at *
    omega

/-- Only the vertices and their table differ. -/
def SameButTable (m m' : OldMesh F) : Prop :=
  m' = { m with
    vertattribnum := m'.vertattribnum, vattrs := m'.vattrs, vertstride := m'.vertstride
    vertices := m'.vertices }

theorem SameButTable.trans {m m1 m2 : OldMesh F} (h1 : SameButTable m m1) (h2 : SameButTable m1 m2) :
    SameButTable m m2 := by
  unfold SameButTable at *
  refine h2.trans ?_
  conv_lhs => rw [h1]

theorem sameButTable {m m' : OldMesh F} {n s : Int} {as : List VAttr} {l : List F}
    (h : m' = { m with vertattribnum := n, vattrs := as, vertstride := s, vertices := l }) :
    SameButTable m m' := by
  subst h
  rfl

/-- What the edits leave of the mesh. -/
structure BoxEdited (vs : Nat) (half one : F) (m m' : OldMesh F) : Prop where
  fields : m' = { m with
    vertnum := 24, vertsList := true, indexList := true, index := m'.index
    vertattribnum := m'.vattrs.length, vattrs := m'.vattrs
    vertstride := m.vertstride - 6 * m.vertformat, vertices := m'.vertices }
  index : m'.index = m.index.map fun i => if i = 24 then 14 else i
  packed : Packed (vs - 6) m'
  room : 8 ≤ vs
  attrs : m.vattrs.length = m'.vattrs.length + 3
  sshort : (∀ a ∈ m.vattrs, SShortAttr a) → ∀ a ∈ m'.vattrs, SShortAttr a
  verts : ∀ i < 24, ∃ v, getVertex m (i : Nat) = .ok v ∧
    getVertex m' (i : Nat) = .ok (boxVertex half one i v)

theorem printVertexData_ok {m : OldMesh F} (format : m.vertformat ≠ 0) (vid u : Int)
    {as : List VAttr} (editable : ∀ a ∈ as, EditableAttr a) : (printVertexData m vid u as).2 = none := by
  induction as with
  | nil => rfl
  | cons a as ih =>
    obtain ⟨n, -, hr⟩ := remAttr_ok format (editable a (by simp))
    rw [printVertexData, hr]
    exact ih fun b hb => editable b (by simp [hb])

theorem boxEdits_ok {vs : Nat} {m : OldMesh F} (box : BoxWithUVs vs m) (half one : F) :
    ∃ m', boxEdits half one m = (m', none) ∧ BoxEdited vs half one m m' := by
  obtain ⟨packed, editable, parked, count, uvs⟩ := box
  have u1 := uvs uv1 (by decide)
  have u2 := uvs uv2 (by decide)
  have u3 := uvs uv3 (by decide)
  have u4 := uvs uv4 (by decide)
  obtain ⟨l, e1, hl, hv1, -⟩ := (C101_removes_vertex_24 packed (by omega) 24).2 (by omega)
  set m1 : OldMesh F := replaceIndex { m with
    vertsList := true, vertnum := m.vertnum - 1, vertices := l } 24 14 with hm1
  have p1 : Packed vs m1 := ⟨packed.table, hl⟩
  have n1 : m1.vertnum = 24 := by show m.vertnum - 1 = 24; omega
  have r1 : 2 < vs :=
    OneFloat2.room packed.table.format packed.table.small packed.table.packs (by decide) u1 u2
  obtain ⟨m2, e2, f2, a2, p2, ed2, pk2, ot2, of2, gv2⟩ :=
    removeUV p1 rfl editable parked (u := uv2) u2 r1
  have format2 : m2.vertformat = m.vertformat := by rw [f2]; rfl
  have r2 : 2 < vs - 2 := OneFloat2.room p2.table.format p2.table.small p2.table.packs
    (u := uv1) (u' := uv3) (by decide) (ot2 uv1 (by decide) u1) (ot2 uv3 (by decide) u3)
  obtain ⟨m3, e3, f3, a3, p3, ed3, pk3, ot3, of3, gv3⟩ :=
    removeUV p2 (by rw [f2]; rfl) ed2 pk2 (u := uv3) (ot2 uv3 (by decide) u3) r2
  have format3 : m3.vertformat = m2.vertformat := by rw [f3]
  have r3 : 2 < vs - 2 - 2 := OneFloat2.room p3.table.format p3.table.small p3.table.packs
    (u := uv1) (u' := uv4) (by decide) (ot3 uv1 (by decide) (ot2 uv1 (by decide) u1))
    (ot3 uv4 (by decide) (ot2 uv4 (by decide) u4))
  obtain ⟨m4, e4, f4, a4, p4, ed4, pk4, ot4, of4, gv4⟩ :=
    removeUV p3 (by rw [f3, f2]; rfl) ed3 pk3 (u := uv4) (ot3 uv4 (by decide) (ot2 uv4 (by decide) u4)) r3
  have format4 : m4.vertformat = m3.vertformat := by rw [f4]
  have q1 : OneFloat2 m4.vattrs uv1 :=
    ot4 uv1 (by decide) (ot3 uv1 (by decide) (ot2 uv1 (by decide) u1))
  have n4 : m4.vertnum = 24 := by rw [f4, f3, f2]; exact n1
  obtain ⟨a, ha, hf, hu, hn, only⟩ := q1.mem
  obtain ⟨o, ho, hin⟩ := p4.table.packs.offset ha hf hn
  rw [Nat.zero_add] at ho hin
  obtain ⟨k, hk, hlen⟩ := p4.num
  have hk24 : k = 24 := by omega
  subst hk24
  set d := vs - 2 - 2 - 2 with hd
  have lens : ∀ i < 24, (i + 1) * d ≤ m4.vertices.length := by
    intro i hi; rw [hlen]; exact Nat.mul_le_mul_right _ hi
  have fits : 14 * d + o + [half, one].length ≤ m4.vertices.length := by
    have := lens 14 (by omega)
    simp only [List.length_cons, List.length_nil]
    omega
  have e5 : editVertex m4 14 uv1 [half, one] =
      ({ m4 with vertices := overwritten m4.vertices (14 * d + o) [half, one] }, none) := by
    have := C97_edit_vertex (i := 14) (o := o) (data := [half, one]) p4.table ed4
      (u := uv1) ⟨⟨a, ha, hu⟩, fun b hb hbu => by rw [only b hb hbu]; exact ho⟩
      (by have := p4.table.small; omega) (by rw [f4, f3, f2]; rfl) (by rw [n4]; decide) fits
    exact_mod_cast this
  refine ⟨{ m4 with vertices := overwritten m4.vertices (14 * d + o) [half, one] }, ?_, ?_, ?_, ?_, ?_,
    ?_, ?_, ?_⟩
  · unfold boxEdits
    rw [printVertexData_ok packed.table.format _ _ editable]
    simp only [andThen]
    rw [e1]
    simp only
    rw [← hm1, e2]
    simp only
    rw [e3]
    simp only
    rw [e4]
    simp only
    rw [e5]
  · have t4 := ((sameButTable f2).trans (sameButTable f3)).trans (sameButTable f4)
    have s4 : m4.vertstride = m.vertstride - 6 * m.vertformat := by
      have h2 : m2.vertstride = m.vertstride - 2 * m.vertformat := by rw [f2]; rfl
      have h3 : m3.vertstride = m2.vertstride - 2 * m2.vertformat := by rw [f3]
      have h4 : m4.vertstride = m3.vertstride - 2 * m3.vertformat := by rw [f4]
      rw [h4, h3, h2, format3, format2]
      ring
    have c4 : m4.vertattribnum = m4.vattrs.length := by
      have : m4.vertattribnum = m3.vattrs.length - 1 := by rw [f4]
      rw [this, a4]
      push_cast
      ring
    have : m4 = { m1 with
        vertattribnum := m4.vattrs.length, vattrs := m4.vattrs
        vertstride := m.vertstride - 6 * m.vertformat, vertices := m4.vertices } := by
      rw [← s4, ← c4]
      exact t4
    have hnum : m.vertnum - 1 = 24 := by omega
    conv_lhs => rw [this]
    rw [hm1]
    unfold replaceIndex
    simp only [hnum]
    rw [show m4.index = m.index.map fun i => if i = 24 then 14 else i by rw [this]; rfl]
  · show m4.index = _
    rw [f4, f3, f2]
    rfl
  · refine ⟨?_, ?_⟩
    · have := p4.table
      rw [show d = vs - 6 by omega] at this
      exact this
    · show ((overwritten m4.vertices (14 * d + o) [half, one]).length : Int) = m4.vertnum * ((vs - 6 : Nat) : Int)
      rw [overwritten_length fits, p4.count, show d = vs - 6 by omega]
  · omega
  · rw [show m.vattrs = m1.vattrs from rfl, a2, a3, a4]
  · intro h
    have := moved_sshort p3 p4 format4 pk4 of4
      (moved_sshort p2 p3 format3 pk3 of3 (moved_sshort p1 p2 format2 pk2 of2 h))
    exact this
  · intro i hi
    have hb : ∃ v, getVertex m (i : Nat) = .ok v ∧ getVertex m4 (i : Nat) =
        .ok (((v.drop uv2).drop uv3).drop uv4) := by
      obtain ⟨v1, g1, g1'⟩ := gv2 i (by rw [n1]; exact_mod_cast hi)
      obtain ⟨v2, g2, g2'⟩ := gv3 i (by rw [f2]; rw [show _ = (24 : Int) from n1]; exact_mod_cast hi)
      obtain ⟨v3, g3, g3'⟩ := gv4 i (by rw [f3, f2]; rw [show _ = (24 : Int) from n1]; exact_mod_cast hi)
      rw [g1'] at g2
      injection g2 with g2
      subst g2
      rw [g2'] at g3
      injection g3 with g3
      subst g3
      refine ⟨v1, ?_, g3'⟩
      rw [← g1]
      have hll : l.length = 24 * vs := by
        have : (l.length : Int) = 24 * vs := by rw [hl]; congr 1
        exact_mod_cast this
      obtain ⟨n, hn', hlen'⟩ := packed.num
      have hn25 : n = 25 := by omega
      refine (getVertex_vert (m := m) (m' := m1) packed.table ?_ ?_ rfl rfl rfl (hv1 i hi)).symm
      · rw [hlen', hn25]; exact Nat.mul_le_mul_right _ (by omega)
      · show _ ≤ l.length
        rw [hll]; exact Nat.mul_le_mul_right _ (by omega)
    obtain ⟨v, g, g4⟩ := hb
    refine ⟨v, g, ?_⟩
    have hbox : ∀ (i : Nat) (v : VObj F), boxVertex half one i v = fun u =>
        if u = uv2 ∨ u = uv3 ∨ u = uv4 then none
        else if u = uv1 ∧ i = 14 then some [half, one] else v u := fun _ _ => rfl
    have hdrop : ∀ u, (((v.drop uv2).drop uv3).drop uv4) u =
        if u = uv2 ∨ u = uv3 ∨ u = uv4 then none else v u := by
      intro u
      simp only [VObj.drop]
      by_cases h2 : u = uv2 <;> by_cases h3 : u = uv3 <;> by_cases h4 : u = uv4 <;> simp [h2, h3, h4]
    by_cases h14 : i = 14
    · subst h14
      rw [getVertex_edited (data := [half, one]) p4.table (lens 14 (by omega)) ha hf hn ho hin g4]
      congr 1
      funext u
      rw [VObj.set, hu]
      rw [hbox]
      simp only
      by_cases h1 : u = uv1
      · subst h1
        have : ¬ (uv1 = uv2 ∨ uv1 = uv3 ∨ uv1 = uv4) := by decide
        simp [this]
      · simp only [h1, if_false, false_and]
        exact hdrop u
    · have : getVertex { m4 with vertices := overwritten m4.vertices (14 * d + o) [half, one] } i =
          getVertex m4 i := by
        refine getVertex_vert p4.table (lens i hi) ?_ rfl rfl rfl
          ((C97_other_vertices (by exact hin) (lens 14 (by omega))).1 i h14)
        show _ ≤ (overwritten _ _ _).length
        rw [overwritten_length fits]
        exact lens i hi
      rw [this, g4]
      congr 1
      funext u
      rw [hdrop]
      rw [hbox]
      simp only
      simp [h14]

theorem Packs.floats {vf : Int} {vs p : Nat} {attrs : List VAttr} (h : Packs vf vs p attrs) {a : VAttr}
    (ha : a ∈ attrs) (used : a.flag ≠ 255) : ∃ n, oldFloats a.vartype = some n := by
  induction h with
  | done => simp at ha
  | unused hf _ ih =>
    rcases List.mem_cons.1 ha with rfl | ha
    · exact absurd hf used
    · exact ih ha
  | used hf hn ho h ih =>
    rcases List.mem_cons.1 ha with rfl | ha
    · exact ⟨_, hn⟩
    · exact ih ha

/-! ## Saving what was loaded and edited -/

theorem Lod.lastNodes_old (k : Kind) (p : Int) (l : Lod F) : l.lastNodes.old k p = l.old k p := by
  have : l.lastNodes.nodes.getLast? = l.nodes.getLast? := by
    unfold Lod.lastNodes
    rcases h : l.nodes.getLast? with _ | n
    · simp
    · simp only [List.getLast?_map, h, Option.map_some]
  unfold Lod.old
  rw [this]
  rfl

theorem oldLods_lastNodes (k : Kind) (prev : List (Mat F)) (ls : List (Lod F)) :
    oldLods k prev (ls.map Lod.lastNodes) = oldLods k prev ls := by
  induction ls generalizing prev with
  | nil => rfl
  | cons l ls ih =>
    rw [List.map_cons, oldLods, oldLods, Lod.lastNodes_old]
    exact congrArg _ (ih _)

theorem oldGeoms_lastNodes (k : Kind) (prev : List (Mat F)) (gs : List (Geom F)) :
    oldGeoms k prev (gs.map Geom.lastNodes) = oldGeoms k prev gs := by
  induction gs generalizing prev with
  | nil => rfl
  | cons g gs ih =>
    rw [List.map_cons, oldGeoms, oldGeoms]
    have hm : g.lastNodes.mats = g.mats := by
      simp only [Geom.mats, Geom.lastNodes, List.flatMap_map]
      rfl
    have hl : oldLods k prev g.lastNodes.lods = oldLods k prev g.lods := oldLods_lastNodes k prev g.lods
    rw [hm, hl, ih]
    rfl

theorem firstEmpty_lastNodes (m : Mesh F) : FirstEmpty m.lastNodes.lods ↔ FirstEmpty m.lods := by
  have : m.lastNodes.lods = m.lods.map Lod.lastNodes := by
    simp only [Mesh.lods, Mesh.lastNodes, List.flatMap_map, List.map_flatMap]
    rfl
  rw [this]
  unfold FirstEmpty
  rcases m.lods with _ | ⟨l, ls⟩
  · simp
  · simp only [List.map_cons, List.head?_cons, Option.some.injEq, exists_eq_left']
    rfl

/-- Saving a loaded mesh and loading it again, in the two ways. -/
theorem shown_stored {pl : Plat} {k : Kind} {file : Bytes} {m : Mesh F64}
    (hm : load pl k file = .ok m) : m.old.shown.map stored = m.lastNodes := by
  obtain ⟨r, hr, rfl⟩ := load_ok_map.1 hm
  obtain ⟨out, h1, h2⟩ := C84_save_unmodified pl k file _ r hm hr
  obtain ⟨wf, range⟩ := C103_loaded pl k file _ hm
  obtain ⟨out', h3, h4⟩ := wf.save range
  rw [h1] at h3
  injection h3 with h3
  subst h3
  have hk : (r.map (FCodec.unpack (F := F64))).old.kind = k := (C06_loaded_wf pl k file _ hm).2
  rw [hk] at h4
  have h5 := load_ok_map (F := F64).2 ⟨_, h2, rfl⟩
  rw [h4] at h5
  injection h5 with h5
  rw [h5, Mesh.lastNodes_map, Mesh.map_map]
  exact congrArg (fun f => r.lastNodes.map f)
    (funext fun w => by rw [Function.comp, ← packF_unpackF]; exact unpackF_packF_unpackF w)

/-- The floats of a loaded mesh are those of a file. -/
theorem loaded_stored {pl : Plat} {k : Kind} {file : Bytes} {m : Mesh F64}
    (hm : load pl k file = .ok m) : ∀ x ∈ m.vertices, stored x = x := by
  obtain ⟨r, -, rfl⟩ := load_ok_map.1 hm
  intro x hx
  obtain ⟨w, -, rfl⟩ := List.mem_map.1 hx
  exact unpackF_packF_unpackF w

/-- A mesh object that differs from a loaded one in its vertices, their table and its indices only:
saved, it is loaded again as it is. -/
theorem save_edited {pl : Plat} {k : Kind} {file : Bytes} {m : Mesh F64} {o : OldMesh F64}
    (hm : load pl k file = .ok m) (first : ¬ FirstEmpty m.lods) (wf : OldWF o) (range : OldInRange pl o)
    (kind : o.kind = m.kind) (geoms : o.geoms = m.old.geoms) (floats : ∀ x ∈ o.vertices, stored x = x) :
    ∃ out, oldSave pl o = ⟨out, none⟩ ∧
      oldLoad pl k out = .ok { o with vertsList := false, indexList := false } := by
  obtain ⟨out, h1, h2⟩ := wf.save range
  have hk : m.kind = k := (C06_loaded_wf pl k file m hm).2
  have hg : (o.shown.map stored).geoms = m.lastNodes.geoms := by
    rw [← shown_stored hm]
    show (o.geoms.map OldGeom.shown).map _ = (m.old.geoms.map OldGeom.shown).map _
    rw [geoms]
  have hf : ¬ FirstEmpty (o.shown.map stored).lods := by
    intro h
    apply first
    rw [← firstEmpty_lastNodes]
    unfold Mesh.lods at h ⊢
    rw [← hg]
    exact h
  rw [kind, hk] at h2
  have h3 := C83_loads_the_same pl k out [] _ h2 hf
  rw [List.append_nil] at h3
  refine ⟨out, h1, ?_⟩
  rw [h3]
  congr 1
  have hgo : oldGeoms o.kind [] (o.shown.map stored).geoms = o.geoms := by
    rw [hg, geoms, kind]
    exact oldGeoms_lastNodes m.kind [] m.geoms
  have hv : o.vertices.map stored = o.vertices := by
    conv_rhs => rw [← List.map_id o.vertices]
    exact List.map_congr_left floats
  have hs := (wf.shows range.vattrs)
  have ha : (o.vattrs.map VAttr.unsigned).map VAttr.signed = o.vattrs :=
    (congrArg OldMesh.vattrs hs).symm
  have hi : (shownIndex o.index).elems = o.index := (congrArg OldMesh.index hs).symm
  show ({ o with
    geoms := oldGeoms o.kind [] (o.shown.map stored).geoms
    vattrs := (o.vattrs.map VAttr.unsigned).map VAttr.signed
    vertices := o.vertices.map stored, vertsList := false
    index := (shownIndex o.index).elems, indexList := false } : OldMesh F64) = _
  rw [hgo, hv, ha, hi]

theorem Holds.mem_of {v : VObj F} {attrs : List VAttr} {w : List F} (h : Holds v attrs w) {x : F}
    (hx : x ∈ w) : ∃ u data, v u = some data ∧ x ∈ data := by
  induction h with
  | done => simp at hx
  | unused _ _ ih => exact ih hx
  | used _ _ hv _ ih =>
    rcases List.mem_append.1 hx with hx | hx
    · exact ⟨_, _, hv, hx⟩
    · exact ih hx

theorem Holds.mem_to {v : VObj F} {attrs : List VAttr} {w : List F} (h : Holds v attrs w) {u : Int}
    (hu : u ∈ usedUsages attrs) : ∃ data, v u = some data ∧ ∀ x ∈ data, x ∈ w := by
  induction h with
  | done => simp [usedUsages] at hu
  | unused hf _ ih => exact ih (by simpa [usedUsages, hf] using hu)
  | @used a as x w hf _ hv _ ih =>
    have e : usedUsages (a :: as) = a.usage :: usedUsages as := by simp [usedUsages, hf]
    rw [e] at hu
    rcases List.mem_cons.1 hu with rfl | hu
    · exact ⟨x, hv, fun y hy => by simp [hy]⟩
    · obtain ⟨data, h1, h2⟩ := ih hu
      exact ⟨data, h1, fun y hy => by simp [h2 y hy]⟩

theorem BoxEdited.num {vs : Nat} {half one : F} {m m' : OldMesh F} (h : BoxEdited vs half one m m') :
    m'.vertnum = 24 := by rw [h.fields]

/-- The floats of the edited mesh are floats of the mesh, or the two given. -/
theorem BoxEdited.floats {vs : Nat} {half one : F} {m m' : OldMesh F} (packed : Packed vs m)
    (count : m.vertnum = 25) (h : BoxEdited vs half one m m') :
    ∀ x ∈ m'.vertices, x ∈ m.vertices ∨ x = half ∨ x = one := by
  intro x hx
  obtain ⟨k, hk, hlen⟩ := h.packed.num
  have hk24 : k = 24 := by have := h.num; omega
  subst hk24
  rw [← verts_flatten hlen] at hx
  obtain ⟨w, hw, hx⟩ := List.mem_flatten.1 hx
  obtain ⟨i, hi, rfl⟩ := List.mem_map.1 hw
  have hi := List.mem_range.1 hi
  obtain ⟨v', g', hh', -⟩ := getVertex_full h.packed.table i (by
    rw [hlen]; exact Nat.mul_le_mul_right _ hi)
  obtain ⟨v, g, g2⟩ := h.verts i hi
  rw [g'] at g2
  injection g2 with g2
  obtain ⟨u, data, hu, hx⟩ := hh'.mem_of hx
  rw [g2] at hu
  unfold boxVertex at hu
  split_ifs at hu with h1 h2
  · injection hu with hu
    subst hu
    right
    simpa using hx
  · left
    obtain ⟨n, hn, hl⟩ := packed.num
    have hn25 : n = 25 := by omega
    obtain ⟨v0, g0, hh, hnone⟩ := getVertex_full packed.table i (by
      rw [hl, hn25]; exact Nat.mul_le_mul_right _ (by omega))
    rw [g] at g0
    injection g0 with g0
    subst g0
    by_cases hus : u ∈ usedUsages m.vattrs
    · obtain ⟨data', e, hsub⟩ := hh.mem_to hus
      rw [hu] at e
      injection e with e
      subst e
      exact List.mem_of_mem_drop (List.mem_of_mem_take (hsub x hx))
    · rw [hnone u hus] at hu
      cases hu

theorem isLong_edited {pl : Plat} {x y : Int} (hx : IsLong pl x) (h : (0 ≤ y ∧ y ≤ x) ∨ (x ≤ y ∧ y ≤ 0)) :
    IsLong pl y := by
  unfold IsLong at *
  split_ifs at * <;> omega

theorem BoxEdited.wf {vs : Nat} {half one : F} {m m' : OldMesh F} (h : BoxEdited vs half one m m')
    (wf : OldWF m) : OldWF m' := by
  have hf := h.fields
  have hnum := h.num
  have hroom := h.room
  obtain ⟨k, hk, hlen⟩ := h.packed.num
  have hk24 : k = 24 := by omega
  subst hk24
  have hsmall := h.packed.table.small
  have fmt : m'.vertformat = m.vertformat := by rw [hf]
  constructor
  · rw [hf]; exact wf.geoms
  · rw [hf]; exact wf.lods
  · rw [hf]; exact wf.lod
  · have : m'.vertattribnum = m'.vattrs.length := by conv_lhs => rw [hf]
    rw [this]
    simp
  · rw [fmt]; exact wf.vertformat
  · rw [intDivMul_exact h.packed.table.format h.packed.table.stride (by
      rw [hnum, abs_of_nonneg (by positivity)]
      have : ((vs - 6 : Nat) : Int) ≤ 65535 := by exact_mod_cast hsmall
      omega), h.packed.count, mul_comm]
  · rw [hlen]; omega
  · have h1 : m'.indexnum = m.indexnum := by rw [hf]
    rw [h1, h.index, List.length_map]
    exact wf.index
  · rw [hf]; exact wf.u2

theorem BoxEdited.range {vs : Nat} {half one : F} {m m' : OldMesh F} (h : BoxEdited vs half one m m')
    (packed : Packed vs m) (wf : OldWF m) {pl : Plat} (range : OldInRange pl m) : OldInRange pl m' := by
  have hf := h.fields
  have hroom := h.room
  have fmt : m'.vertformat = m.vertformat := by rw [hf]
  constructor
  · rw [hf]; exact range.head_u1
  · rw [hf]; exact range.version
  · rw [hf]; exact range.head_u3
  · rw [hf]; exact range.head_u4
  · rw [hf]; exact range.head_u5
  · rw [hf]; exact range.u1
  · rw [hf]; exact range.geomnum
  · rw [hf]; exact range.lodnum
  · have h1 : m'.vertattribnum = m'.vattrs.length := by conv_lhs => rw [hf]
    have h2 := wf.vattrs
    have h3 := h.attrs
    refine isLong_edited range.vertattribnum (.inl ?_)
    omega
  · exact h.sshort range.vattrs
  · rw [fmt]; exact range.vertformat
  · have h1 := h.packed.table.stride
    have h2 := packed.table.stride
    rw [fmt] at h1
    refine isLong_edited range.vertstride ?_
    have e : ((vs - 6 : Nat) : Int) = vs - 6 := by omega
    rw [h1, h2, e]
    rcases le_total 0 m.vertformat with h0 | h0
    · left
      exact ⟨mul_nonneg h0 (by omega), mul_le_mul_of_nonneg_left (by omega) h0⟩
    · right
      exact ⟨mul_le_mul_of_nonpos_left (by omega) h0, mul_nonpos_of_nonpos_of_nonneg h0 (by omega)⟩
  · rw [h.num]
    unfold IsLong
    split_ifs <;> decide
  · rw [hf]; exact range.indexnum
  · rw [h.index]
    intro i hi
    obtain ⟨j, hj, rfl⟩ := List.mem_map.1 hi
    split_ifs
    · unfold IsShort; decide
    · exact range.index j hj
  · rw [hf]; exact range.u2
  · rw [hf]; exact range.lods

/-! ## mesh_read.py -/

theorem Holds.attr {v : VObj F} {vf : Int} (hvf : vf ≠ 0) {vs p o n : Nat} {attrs : List VAttr}
    {a : VAttr} {w : List F} (h : Packs vf vs p attrs) (ha : a ∈ attrs) (used : a.flag ≠ 255)
    (floats : oldFloats a.vartype = some n) (offset : a.offset = vf * (p + o : Nat))
    (hw : Holds v attrs w) (hd : (usedUsages attrs).Nodup) :
    v a.usage = some ((w.drop o).take n) := by
  induction h generalizing o w with
  | done => simp at ha
  | unused hf _ ih =>
    rcases List.mem_cons.1 ha with rfl | ha
    · exact absurd hf used
    · cases hw with
      | used hf' => exact absurd hf hf'
      | unused _ hw => exact ih ha offset hw (by simpa [usedUsages, hf] using hd)
  | @used p k b as hf hn ho h ih =>
    cases hw with
    | unused hf' => exact absurd hf' hf
    | @used _ _ x w _ hx hv hw =>
      have hxk : x.length = k := by rw [hn] at hx; injection hx with hx; exact hx.symm
      have hu : usedUsages (b :: as) = b.usage :: usedUsages as := by simp [usedUsages, hf]
      rw [hu] at hd
      obtain ⟨hnot, hd⟩ := List.nodup_cons.1 hd
      rcases List.mem_cons.1 ha with rfl | ha
      · have h0 : o = 0 := by
          rw [ho] at offset
          have := mul_left_cancel₀ hvf offset
          omega
        subst h0
        have hlen : x.length = n := by rw [hx] at floats; injection floats
        rw [hv, List.drop_zero, ← hlen, List.take_left']
        rfl
      · obtain ⟨o', h1, h2⟩ := h.offset ha used floats
        have e : o = k + o' := by
          rw [h1] at offset
          have := mul_left_cancel₀ hvf offset
          omega
        subst e
        rw [ih ha h1 hw hd, ← hxk, List.drop_length_add_append]

theorem displayAttrs_ok {vs : Nat} {m : OldMesh F} (packed : Packed vs m) {as : List VAttr}
    (sub : ∀ a ∈ as, a ∈ m.vattrs) (editable : ∀ a ∈ m.vattrs, EditableAttr a) :
    ∃ blocks, displayAttrs m as = (blocks.flatten, none) ∧ List.Forall₂ (ShownAttr m) as blocks := by
  induction as with
  | nil => exact ⟨[], rfl, .nil⟩
  | cons a as ih =>
    obtain ⟨blocks, h1, h2⟩ := ih fun b hb => sub b (by simp [hb])
    have ha := sub a (by simp)
    obtain ⟨n, hn, hr⟩ := remAttr_ok packed.table.format (editable a ha)
    rw [displayAttrs, hr]
    simp only [h1]
    refine ⟨_ :: blocks, rfl, .cons ⟨_, rfl, ?_, fun used i hi => ?_⟩ h2⟩
    · obtain ⟨k, hk, -⟩ := packed.num
      simp [hk]
    · obtain ⟨k, hk, hlen⟩ := packed.num
      obtain ⟨v, g, hh⟩ := getVertex_holds packed.table i (by
        rw [hlen]; exact Nat.mul_le_mul_right _ (by omega))
      have hik : i < k := by omega
      obtain ⟨n', hn'⟩ : ∃ n', oldFloats a.vartype = some n' := packed.table.packs.floats ha used
      have hnn : n = n' := by
        have := (oldFloats_declLen hn').1
        rw [hn] at this
        injection this
      subst hnn
      obtain ⟨o, ho, hin⟩ := packed.table.packs.offset ha used hn'
      rw [Nat.zero_add] at hin
      have hoff : intTrueDiv a.offset m.vertformat = o :=
        intTrueDiv_exact packed.table.format (by simpa using ho) (by
          rw [abs_of_nonneg (by positivity)]
          have : (o : Int) ≤ 65535 := by have := packed.table.small; omega
          omega)
      refine ⟨(o : Int) + (i : Int) * (vs : Int), v, _, ?_, g, hh.attr packed.table.format packed.table.packs ha used hn' ho
        packed.table.distinct⟩
      rw [hoff, vsize_exact packed.table, hk, Int.toNat_natCast, List.getElem?_map,
        List.getElem?_range hik, Option.map_some]
      congr 2
      rw [show (o : Int) + (i : Int) * (vs : Int) = ((i * vs + o : Nat) : Int) by push_cast; ring,
        show ((i * vs + o : Nat) : Int) + (n : Int) = ((i * vs + o + n : Nat) : Int) by push_cast; rfl,
        pySlice_nat, vert, List.drop_take, List.drop_drop, List.take_take]
      congr 1
      omega

theorem displayIndex_ok {vs : Nat} {m : OldMesh F} (packed : Packed vs m) (wide : 3 ≤ vs)
    (inside : ∀ i ∈ m.index, 0 ≤ i ∧ i < m.vertnum) :
    displayIndex m 0 m.index = (cornerLines vs m, none) := by
  have key : ∀ (ids : List Int) (k : Nat), (∀ i ∈ ids, 0 ≤ i ∧ i < m.vertnum) →
      displayIndex m (k % 3) ids = ((ids.mapIdx fun j id =>
        .corner id ((vert vs m.vertices id.toNat).take 3) ::
          if (k + j) % 3 = 2 then [Shown.blank] else []).flatten, none) := by
    intro ids
    induction ids with
    | nil => intro k _; rfl
    | cons id ids ih =>
      intro k h
      obtain ⟨h0, h1⟩ := h id (by simp)
      have hk : (if k % 3 + 1 = 3 then 0 else k % 3 + 1) = (k + 1) % 3 := by split <;> omega
      rw [displayIndex, if_neg packed.table.format, hk, ih (k + 1) fun i hi => h i (by simp [hi])]
      obtain ⟨n, rfl⟩ := Int.eq_ofNat_of_zero_le h0
      have hc : pySlice m.vertices ((n : Int) * intTrueDiv m.vertstride m.vertformat)
          ((n : Int) * intTrueDiv m.vertstride m.vertformat + 3) =
          (vert vs m.vertices n).take 3 := by
        rw [vsize_exact packed.table, show (n : Int) * (vs : Int) = ((n * vs : Nat) : Int) by push_cast; rfl,
          show ((n * vs : Nat) : Int) + 3 = ((n * vs + 3 : Nat) : Int) by push_cast; rfl,
          pySlice_nat, vert, List.take_take]
        congr 1
        omega
      simp only [hc, Int.toNat_natCast, List.mapIdx_cons, List.flatten_cons, Nat.add_zero]
      have e : (fun j (id : Int) => (Shown.corner id ((vert vs m.vertices id.toNat).take 3) ::
          if (k + 1 + j) % 3 = 2 then [Shown.blank] else [])) =
          fun j (id : Int) => (Shown.corner id ((vert vs m.vertices id.toNat).take 3) ::
          if (k + (j + 1)) % 3 = 2 then [Shown.blank] else []) := by
        funext j id
        rw [show k + 1 + j = k + (j + 1) by omega]
      rw [e]
      by_cases hb : k % 3 = 2
      · rw [if_pos (by omega), if_pos hb]; rfl
      · rw [if_neg (by omega), if_neg hb]; rfl
  have := key m.index 0 inside
  simpa [cornerLines] using this

theorem filter_one {attrs : List VAttr} {u : Int} {j : Nat} {a : VAttr} (ha : attrs[j]? = some a)
    (hu : a.usage = u) (only : ∀ (k : Nat) (b : VAttr), attrs[k]? = some b → b.usage = u → k = j) :
    attrs.filter (fun b => decide (b.usage = u)) = [a] := by
  induction attrs generalizing j with
  | nil => simp at ha
  | cons b bs ih =>
    cases j with
    | zero =>
      have hb : b = a := by simpa using ha
      subst hb
      rw [List.filter_cons, if_pos (by simpa using hu)]
      congr 1
      rw [List.filter_eq_nil_iff]
      intro c hc hcu
      obtain ⟨k, hk⟩ := List.mem_iff_getElem?.1 hc
      have := only (k + 1) c (by simpa using hk) (by simpa using hcu)
      omega
    | succ j =>
      have hb : b.usage ≠ u := fun h => by
        have := only 0 b rfl h
        omega
      rw [List.filter_cons, if_neg (by simpa using hb)]
      refine ih (by simpa using ha) fun k c hk hc => ?_
      have := only (k + 1) c (by simpa using hk) hc
      omega

theorem printVertexData_filter {m : OldMesh F} (format : m.vertformat ≠ 0) (vid u : Int)
    (w : VAttr → Nat) {as : List VAttr} (editable : ∀ a ∈ as, EditableAttr a)
    (hw : ∀ a ∈ as, oldDeclLen a.vartype = .ok (w a)) :
    printVertexData m vid u as = ((as.filter fun b => decide (b.usage = u)).map fun a =>
      pySlice m.vertices
        (intTrueDiv a.offset m.vertformat + vid * intTrueDiv m.vertstride m.vertformat)
        (intTrueDiv a.offset m.vertformat + vid * intTrueDiv m.vertstride m.vertformat + w a),
      none) := by
  induction as with
  | nil => rfl
  | cons a as ih =>
    obtain ⟨n, hn, hr⟩ := remAttr_ok format (editable a (by simp))
    have : n = w a := by
      have := hw a (by simp)
      rw [hn] at this
      injection this
    subst this
    rw [printVertexData, hr]
    simp only
    rw [ih (fun b hb => editable b (by simp [hb])) fun b hb => hw b (by simp [hb])]
    by_cases h : a.usage = u
    · simp [h]
    · simp [h]

theorem printVertexData_one {vs : Nat} {m : OldMesh F} (packed : Packed vs m)
    (editable : ∀ a ∈ m.vattrs, EditableAttr a) {u : Int} (one : OneFloat2 m.vattrs u) {i : Nat}
    (hi : (i : Int) < m.vertnum) :
    ∃ v data, getVertex m i = .ok v ∧ v u = some data ∧
      printVertexData m i u m.vattrs = ([data], none) := by
  obtain ⟨j, a, ha, -, used, hu, ht, only⟩ := one
  obtain ⟨k, hk, hlen⟩ := packed.num
  obtain ⟨v, g, hh⟩ := getVertex_holds packed.table i (by
    rw [hlen]; exact Nat.mul_le_mul_right _ (by omega))
  have hm := List.mem_of_getElem? ha
  have hn : oldFloats a.vartype = some 2 := by rw [ht]; rfl
  obtain ⟨o, ho, hin⟩ := packed.table.packs.offset hm used hn
  rw [Nat.zero_add] at hin
  have hoff : intTrueDiv a.offset m.vertformat = o :=
    intTrueDiv_exact packed.table.format (by simpa using ho) (by
      rw [abs_of_nonneg (by positivity)]
      have : (o : Int) ≤ 65535 := by have := packed.table.small; omega
      omega)
  have hd := hh.attr packed.table.format packed.table.packs hm used hn ho packed.table.distinct
  rw [hu] at hd
  refine ⟨v, _, g, hd, ?_⟩
  have hw : ∀ b ∈ m.vattrs, oldDeclLen b.vartype =
      .ok ((oldDeclLen b.vartype).toOption.getD 0) := by
    intro b hb
    obtain ⟨n, h, -⟩ := remAttr_ok packed.table.format (editable b hb)
    rw [h]; rfl
  rw [printVertexData_filter packed.table.format _ _ _ editable hw, filter_one ha hu only,
    List.map_singleton, hoff, vsize_exact packed.table]
  have h2 : (oldDeclLen a.vartype).toOption.getD 0 = 2 := by rw [ht]; rfl
  rw [h2, show (o : Int) + (i : Int) * (vs : Int) = ((i * vs + o : Nat) : Int) by push_cast; ring,
    show ((i * vs + o : Nat) : Int) + ((2 : Nat) : Int) = ((i * vs + o + 2 : Nat) : Int) by push_cast; rfl,
    pySlice_nat, vert, List.drop_take, List.drop_drop, List.take_take]
  congr 3
  omega

end Bf2
