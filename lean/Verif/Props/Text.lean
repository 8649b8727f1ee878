import Verif.TextLemmas
import Verif.Props.Object

/-!
# C147: texts of headers, attributes and faces, and the `with` statement
-/

namespace Bf2

/-- **C147.** The text of a header has five lines, each with a label and the number of that label in the
usual notation. -/
theorem C147_head (h : Head) :
    ∃ a b c d e : Str, h.text.splitOn '\n' =
        ["head.u1 = ".toList ++ a, "head.version = ".toList ++ b, "head.u3 = ".toList ++ c,
          "head.u4 = ".toList ++ d, "head.u5 = ".toList ++ e] ∧
      WritesInt a h.u1 ∧ WritesInt b h.version ∧ WritesInt c h.u3 ∧ WritesInt d h.u4 ∧ WritesInt e h.u5 := by
  refine ⟨_, _, _, _, _, ?_, intText_writes _, intText_writes _, intText_writes _, intText_writes _,
    intText_writes _⟩
  unfold Head.text
  have free := fun n => intText_free (c := '\n') (by decide) (by decide) n
  refine List.splitOn_intercalate '\n' ?_ (by simp)
  intro l hl
  simp only [List.mem_cons, List.not_mem_nil, or_false] at hl
  rcases hl with rfl | rfl | rfl | rfl | rfl <;>
  · rw [List.mem_append, not_or]
    exact ⟨by decide, free _⟩

/-- **C147.** Headers have the same text exactly if they are equal. -/
theorem C147_head_eq (h h' : Head) : h.text = h'.text ↔ h = h' := by
  refine ⟨fun e => ?_, fun e => e ▸ rfl⟩
  obtain ⟨a, b, c, d, f, t, ha, hb, hc, hd, hf⟩ := C147_head h
  obtain ⟨a', b', c', d', f', t', ha', hb', hc', hd', hf'⟩ := C147_head h'
  rw [e, t'] at t
  simp only [List.cons.injEq, List.append_cancel_left_eq, and_true] at t
  obtain ⟨rfl, rfl, rfl, rfl, rfl⟩ := t
  rcases h with ⟨_, _, _, _, _⟩
  rcases h' with ⟨_, _, _, _, _⟩
  simp only [Head.mk.injEq]
  exact ⟨ha.inj ha', hb.inj hb', hc.inj hc', hd.inj hd', hf.inj hf'⟩

example : String.ofList (Head.text ⟨0, 11, 0, 0, -7⟩) =
    "head.u1 = 0\nhead.version = 11\nhead.u3 = 0\nhead.u4 = 0\nhead.u5 = -7" := by decide +kernel

/-- **C147.** The text of a vertex attribute exists exactly if its type and its usage are known; otherwise
`str` raises `ValueError`. -/
theorem C147_attr_raises (py311 : Bool) (a : VAttr) :
    (typeFloats a.vartype ≠ none ∧ KnownUsage a.usage → ∃ s, a.text py311 = .ok s) ∧
    (¬ (typeFloats a.vartype ≠ none ∧ KnownUsage a.usage) → a.text py311 = .error .valueError) := by
  have ht := typeName_none a.vartype
  have hu := usageName_none a.usage
  have hd := declLen_some a.vartype
  unfold VAttr.text typeText
  constructor
  · rintro ⟨h, k⟩
    rcases hn : typeName a.vartype with _ | name
    · exact absurd (ht.1 hn) h
    · rcases hf : typeFloats a.vartype with _ | n
      · exact absurd hf h
      · rcases hus : usageName a.usage with _ | us
        · exact absurd k (hu.1 hus)
        · rw [hf] at hd
          rw [hd]
          exact ⟨_, rfl⟩
  · intro h
    rcases hn : typeName a.vartype with _ | name
    · rfl
    · have hf : typeFloats a.vartype ≠ none := fun hf => by rw [ht.2 hf] at hn; cases hn
      rcases hg : typeFloats a.vartype with _ | n
      · exact absurd hg hf
      · rw [hg] at hd
        rw [hd, hu.2 fun k => h ⟨hf, k⟩]

/-- **C147.** The text of a vertex attribute shows, in this order and separated by commas, the flag, the
offset, the type with the number of floats of the type, and the name of the usage. The type is shown as a
number by new Pythons and by name by old ones. -/
theorem C147_attr (py311 : Bool) (a : VAttr) (s : Str) (h : a.text py311 = .ok s) :
    ∃ flag offset type size usage : Str, s.splitOn ',' =
        ["flag: ".toList ++ flag, " offset: ".toList ++ offset,
          " vartype: ".toList ++ type ++ " of size ".toList ++ size, " usage: ".toList ++ usage] ∧
      WritesInt flag a.flag ∧ WritesInt offset a.offset ∧
      (if py311 then WritesInt type a.vartype else
        ∃ name, typeNames.lookup a.vartype = some name ∧ type = "D3DDECLTYPE.".toList ++ name.toList) ∧
      (∃ n, typeFloats a.vartype = some n ∧ WritesInt size n) ∧
      (∃ name, usageNames.lookup a.usage = some name ∧ usage = name.toList) := by
  unfold VAttr.text at h
  rcases hty : typeText py311 a.vartype with e | type
  · rw [hty] at h; cases h
  rw [hty] at h
  rcases hd : declLen a.vartype with e | n
  · rw [hd] at h; cases h
  rw [hd] at h
  rcases hus : usageName a.usage with _ | usage
  · rw [hus] at h; cases h
  rw [hus] at h
  have hs := (Except.ok.inj h).symm
  have free := fun n => intText_free (c := ',') (by decide) (by decide) n
  have htype : ',' ∉ type ∧ (if py311 then WritesInt type a.vartype else
      ∃ name, typeNames.lookup a.vartype = some name ∧ type = "D3DDECLTYPE.".toList ++ name.toList) := by
    refine ⟨(typeText_free hty).1, ?_⟩
    obtain ⟨name, hn, ht⟩ := typeText_ok hty
    rw [typeName_eq, Option.map_eq_some_iff] at hn
    obtain ⟨nm, h1, h2⟩ := hn
    cases py311
    · exact ⟨nm, h1, by rw [ht, h2]; rfl⟩
    · exact ht ▸ intText_writes _
  have husage : ',' ∉ usage ∧ ∃ name, usageNames.lookup a.usage = some name ∧ usage = name.toList := by
    refine ⟨usageName_free hus, ?_⟩
    rw [usageName_eq, Option.map_eq_some_iff] at hus
    obtain ⟨nm, h1, h2⟩ := hus
    exact ⟨nm, h1, h2.symm⟩
  have hsize : ∃ k, typeFloats a.vartype = some k ∧ WritesInt (intText n) k := by
    have hd' := declLen_some a.vartype
    rcases hf : typeFloats a.vartype with _ | k
    · rw [hd, hf] at hd'; cases hd'
    · rw [hd, hf] at hd'
      cases hd'
      exact ⟨n, rfl, intText_writes _⟩
  refine ⟨intText a.flag, intText a.offset, type, intText n, usage, ?_, intText_writes _, intText_writes _,
    htype.2, hsize, husage.2⟩
  have hi : s = [','].intercalate
      ["flag: ".toList ++ intText a.flag, " offset: ".toList ++ intText a.offset,
        " vartype: ".toList ++ type ++ " of size ".toList ++ intText n, " usage: ".toList ++ usage] := by
    rw [hs]
    simp [List.intercalate, List.intersperse]
  rw [hi]
  refine List.splitOn_intercalate ',' ?_ (by simp)
  intro l hl
  simp only [List.mem_cons, List.not_mem_nil, or_false] at hl
  rcases hl with rfl | rfl | rfl | rfl
  · rw [List.mem_append, not_or]; exact ⟨by decide, free _⟩
  · rw [List.mem_append, not_or]; exact ⟨by decide, free _⟩
  · simp only [List.mem_append, not_or]; exact ⟨⟨⟨by decide, htype.1⟩, by decide⟩, free _⟩
  · rw [List.mem_append, not_or]; exact ⟨by decide, husage.1⟩

/-- **C147.** Attributes that have a text have the same text exactly if they are equal, whatever the version
of Python. -/
theorem C147_attr_eq (py311 : Bool) (a b : VAttr) (s t : Str) (ha : a.text py311 = .ok s)
    (hb : b.text py311 = .ok t) : s = t ↔ a = b := by
  refine ⟨fun e => ?_, fun e => by rw [e, hb] at ha; exact (Except.ok.inj ha).symm⟩
  subst e
  obtain ⟨f, o, ty, z, u, h, hf, ho, hty, hz, hu⟩ := C147_attr py311 a s ha
  obtain ⟨f', o', ty', z', u', h', hf', ho', hty', hz', hu'⟩ := C147_attr py311 b s hb
  rw [h] at h'
  simp only [List.cons.injEq, List.append_assoc, List.append_cancel_left_eq, and_true] at h'
  obtain ⟨rfl, rfl, hts, rfl⟩ := h'
  obtain ⟨nu, hl, hnu⟩ := hu
  obtain ⟨nu', hl', hnu'⟩ := hu'
  have husage : a.usage = b.usage := by
    refine usageName_inj (s := u) ?_ ?_ <;> rw [usageName_eq, Option.map_eq_some_iff]
    · exact ⟨nu, hl, hnu.symm⟩
    · exact ⟨nu', hl', hnu'.symm⟩
  have texts : ∀ {a : VAttr} {ty : Str}, (if py311 then WritesInt ty a.vartype else
        ∃ name, typeNames.lookup a.vartype = some name ∧ ty = "D3DDECLTYPE.".toList ++ name.toList) →
      ' ' ∉ ty := by
    intro a ty h
    cases py311
    · obtain ⟨name, hl, rfl⟩ := h
      have := typeName_free (t := a.vartype) (s := name.toList)
        (by rw [typeName_eq, hl]; rfl)
      simp only [List.mem_append, not_or]
      exact ⟨by decide, this.2⟩
    · intro hm
      rcases WritesInt.chars h hm with h | h
      · exact absurd h (by decide)
      · exact absurd h (by decide)
  have hcut : ty = ty' := (cut_eq (c := ' ') (texts hty) (texts hty') hts).1
  subst hcut
  have htype : a.vartype = b.vartype := by
    cases py311
    · obtain ⟨n, hl, h1⟩ := hty
      obtain ⟨n', hl', h1'⟩ := hty'
      rw [h1] at h1'
      have := List.append_cancel_left h1'
      refine typeName_inj (s := n.toList) (by rw [typeName_eq, hl]; rfl) (by rw [typeName_eq, hl', this]; rfl)
    · exact WritesInt.inj hty hty'
  rcases a with ⟨_, _, _, _⟩
  rcases b with ⟨_, _, _, _⟩
  simp only [VAttr.mk.injEq]
  exact ⟨hf.inj hf', ho.inj ho', htype, husage⟩

example : (VAttr.text false ⟨0, 12, 2, 3⟩).map String.ofList =
    .ok "flag: 0, offset: 12, vartype: D3DDECLTYPE.FLOAT3 of size 3, usage: NORMAL" := by decide +kernel
example : (VAttr.text true ⟨255, 0, 17, 0⟩).map String.ofList =
    .ok "flag: 255, offset: 0, vartype: 17 of size 0, usage: POSITION" := by decide +kernel
example : VAttr.text true ⟨0, 0, 5, 0⟩ = .error .valueError := by decide

/-! ## The deprecated modules -/

/-- **C147.** In the deprecated `modmesh` the text of an attribute is its four numbers, so that attributes
have the same text exactly if they are equal. -/
theorem C147_old_attr (a b : VAttr) :
    WritesFour a.oldText a.flag a.offset a.vartype a.usage ∧ (a.oldText = b.oldText ↔ a = b) := by
  refine ⟨fourText .., fun h => ?_, fun h => h ▸ rfl⟩
  have ha : WritesFour a.oldText _ _ _ _ := fourText a.flag a.offset a.vartype a.usage
  rw [h] at ha
  rcases a with ⟨_, _, _, _⟩
  rcases b with ⟨_, _, _, _⟩
  simp only [VAttr.mk.injEq]
  exact ha.inj (fourText ..)

example : String.ofList (VAttr.oldText ⟨0, 12, 2, 3⟩) = "(0, 12, 2, 3)" := by decide +kernel

/-- **C147.** The text of a face of a collision mesh is its three vertices and the material read from the
file. A face that was not read has no text, and the text does not show the material that is saved. -/
theorem C147_face (f : ColFace) :
    (f.m = none → f.text = .error .attributeError) ∧
    (∀ m, f.m = some m → ∃ s, f.text = .ok s ∧ WritesFour s f.v1 f.v2 f.v3 m) ∧
    (∀ x, ({ f with material := x } : ColFace).text = f.text) := by
  refine ⟨fun h => ?_, fun m h => ?_, fun x => rfl⟩
  · unfold ColFace.text; rw [h]
  · unfold ColFace.text; rw [h]; exact ⟨_, rfl, fourText ..⟩

/-- **C147.** Two faces have the same text exactly if their vertices and the materials read are equal. -/
theorem C147_face_eq (f g : ColFace) (m n : Int) (hf : f.m = some m) (hg : g.m = some n) :
    f.text = g.text ↔ f.v1 = g.v1 ∧ f.v2 = g.v2 ∧ f.v3 = g.v3 ∧ m = n := by
  obtain ⟨s, hs, ws⟩ := (C147_face f).2.1 m hf
  obtain ⟨t, ht, wt⟩ := (C147_face g).2.1 n hg
  constructor
  · intro h
    rw [hs, ht] at h
    cases h
    exact ws.inj wt
  · rintro ⟨h1, h2, h3, rfl⟩
    unfold ColFace.text
    rw [hf, hg, h1, h2, h3]

example : (ColFace.text ⟨1, 2, 3, 0, some 7⟩).map String.ofList = .ok "(1, 2, 3, 7)" := by decide +kernel

/-! ## Messages and meshes -/

/-- **C147.** What `canMerge` answers for a pair of attributes: equal ones can be merged, others not, and if
they differ the text that is logged decides whether `ValueError` is raised. -/
theorem C147_message (py311 : Bool) (own other : Str) (id : Nat) (a b : VAttr) :
    canMergeAttr a b = if a = b then .ok true else (attrMessage py311 own other id a).map fun _ => false := by
  unfold canMergeAttr
  by_cases h : a = b
  · rw [if_pos h, if_pos h]
  rw [if_neg h, if_neg h]
  unfold attrMessage VAttr.text typeText
  have ht := typeName_none a.vartype
  have hd := declLen_some a.vartype
  have hu := usageName_none a.usage
  rcases hn : typeName a.vartype with _ | name
  · rw [hd, ht.1 hn]; rfl
  · have hf : typeFloats a.vartype ≠ none := fun hf => by rw [ht.2 hf] at hn; cases hn
    rcases hg : typeFloats a.vartype with _ | n
    · exact absurd hg hf
    rw [hg] at hd
    rw [hd]
    rcases hus : usageName a.usage with _ | us
    · have : usageKnown a.usage = false := by
        have := hu.1 hus
        unfold KnownUsage at this
        simp only [List.mem_cons, List.not_mem_nil, or_false, not_or, not_and] at this
        simp only [usageKnown, Bool.or_eq_false_iff, Bool.and_eq_false_iff, decide_eq_false_iff_not, beq_eq_false_iff_ne]
        omega
      simp only [this]; rfl
    · have : usageKnown a.usage = true := by
        have : KnownUsage a.usage := by
          by_contra hk
          rw [hu.2 hk] at hus
          cases hus
        unfold KnownUsage at this
        simp only [List.mem_cons, List.not_mem_nil, or_false] at this
        simp only [usageKnown, Bool.or_eq_true, Bool.and_eq_true, decide_eq_true_eq, beq_iff_eq]
        omega
      simp only [this]; rfl

/-- **C147.** The logged message cannot tell the two attributes apart: it shows that of the first mesh
twice. -/
theorem C147_message_same (py311 : Bool) (own other : Str) (id : Nat) (a : VAttr) (s t : Str)
    (ht : a.text py311 = .ok t) (hs : attrMessage py311 own other id a = .ok s) :
    ∃ pre post, s = pre ++ t ++ " != vertex_attributes[".toList ++ intText id ++ "] ".toList ++ t ++ post := by
  unfold attrMessage at hs
  rw [ht] at hs
  refine ⟨"vertex_attributes[".toList ++ intText id ++ "] ".toList, " ".toList ++ own ++ ": ".toList ++ other, ?_⟩
  rw [← Except.ok.inj hs]
  simp only [List.append_assoc]

section
variable {F : Type}

/-- **C147.** `str` of a mesh always raises. -/
theorem C147_mesh (o : Obj F) : o.text = .error .notImplementedError := rfl

variable [FCodec F]

/-- **C147.** A `with` statement over a mesh that has been constructed runs its body on that mesh as it is,
however it was edited or saved and whatever has happened to the files since, and hides no exception. -/
theorem C147_with {pl : Plat} {fs : FS} {name : Option Str} {fl : Flags} {o : Obj F}
    (made : construct pl fs name fl = .ok o) (later : FS) (newName : Str) (m : Mesh F)
    (body : FS → Obj F → FS × Obj F × Option Err) :
    ({ o with filename := newName, mesh := m } : Obj F).withDo pl later body =
      body later { o with filename := newName, mesh := m } := by
  have loaded : o.isLoaded = true := by
    unfold construct at made
    repeat' split at made
    all_goals first | (cases made; done) | (cases made; rfl)
  unfold Obj.withDo Obj.enter
  dsimp only
  rw [loaded, if_neg (by simp)]
  dsimp only
  rcases body later _ with ⟨fs2, o2, _ | e⟩ <;> rfl

end

example : ∃ o : Obj F64, construct win boxFS (some "box.staticmesh".toList) ⟨false, false, false⟩ = .ok o := by
  apply isOk_get
  decide +kernel

end Bf2
