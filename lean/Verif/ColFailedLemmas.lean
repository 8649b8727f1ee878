import Verif.FailedLemmas
import Verif.ColLemmas
import Verif.ColEditLemmas
import Verif.ColEditSpec

/-! # Lemmas: what a `save` of a collision mesh that raises leaves is too short for the reader -/

namespace Bf2
namespace Follows
variable {α β F : Type} [FCodec F]

omit [FCodec F] in
theorem mapped {p : P α} {w : Out} {a : α} (h : Follows p w a) (f : α → β) : Follows (f <$> p) w (f a) := by
  rw [map_eq_pure_bind, ← Out.seq_nil w]
  exact seq h (pure _)

omit [FCodec F] in
theorem sshort (pl : Plat) (v : Int) : Follows (readSShort pl) (writeSShort pl v) v := by
  refine of_inverts (readSShort_inv pl) trivial fun h => ?_
  unfold writeSShort at h ⊢
  split_ifs at h ⊢
  · exact absurd rfl h
  · rfl

/-- What a float is after writing and reading it. -/
def again (x : F) : F := FCodec.unpack (FCodec.pack x)

theorem float (pl : Plat) (x : F) : Follows (readFloat1 pl) (writeFloat pl x) (again x) := by
  rw [readFloat1_map]
  exact mapped (sure (readFloat1_inv pl) (a := FCodec.pack x) trivial rfl) _

theorem floatTriple (pl : Plat) (v : Vec3 F) : Follows (readFloat3 pl) (writeFloat3 pl v) (v.map again) := by
  rw [readFloat3_map]
  exact mapped (sure (readFloat3_inv pl) (a := v.map FCodec.pack) trivial rfl) (Vec3.map FCodec.unpack)

omit [FCodec F] in
theorem colFace (pl : Plat) (f : ColFace) : Follows (readFace pl) (writeFace pl f) f.stored.obj :=
  all (sshort pl _) <| all (sshort pl _) <| all (sshort pl _) <| all (sshort pl _) <| pure_all _

theorem colY (pl : Plat) (y : ColY F) : Follows (readY pl) (writeY pl y) (y.map again) :=
  all (float pl _) <| all (sshort pl _) <| all (sshort pl _) <| all (long pl _) <|
    all (long pl _) <| pure_all _

omit [FCodec F] in
theorem coltype (pl : Plat) (version t : Int) (h : if 9 ≤ version then 0 ≤ t ∧ t ≤ 4 else t = 0) :
    Follows (readLodType pl version) (if 9 ≤ version then writeLong pl t else .nil) t := by
  unfold readLodType readColtype
  split_ifs at h ⊢
  · rw [← Out.seq_nil (writeLong pl t)]
    refine seq (long pl t) ?_
    rw [if_pos h]
    exact pure _
  · rw [h]
    exact pure _

omit [FCodec F] in
/-- Several writers one after the other for one reader. -/
theorem several {p : P α} {f : α → P β} (l1 : List Out) {l : List Out} {a : α} {b : β}
    (h1 : Follows p (Out.all l1) a) (h2 : Follows (f a) (Out.all l) b) :
    Follows (p >>= f) (Out.all (l1 ++ l)) b := by
  have h := seq h1 h2
  have e : (Out.all l1).seq (Out.all l) = Out.all (l1 ++ l) := by
    clear h1 h2 h
    induction l1 with
    | nil => simp [Out.all, Out.nil_seq]
    | cons w l1 ih =>
      simp only [Out.all, List.cons_append] at ih ⊢
      rw [← ih, Out.seq_assoc]
  rwa [e] at h

omit [FCodec F] in
theorem counted {γ : Type} (pl : Plat) {p : P α} {w : γ → Out} {g : γ → α} {n : Int} {l : List γ}
    (hn : l.length = n.toNat) (h : ∀ c ∈ l, Follows p (w c) (g c)) :
    Follows (readCounted pl p) (Out.all [writeLong pl n, .each w l]) (n, l.map g) :=
  all (long pl _) <| all (rep hn h) <| pure_all _

theorem colLod (pl : Plat) (version : Int) (l : ColLod F ColFace) (h : ColLodWF version l) :
    Follows (readLod pl version) (writeLod pl version l) (l.map again fun f => f.stored.obj) := by
  unfold readLod writeLod
  refine all (coltype pl version _ h.coltype) ?_
  refine several [_, _] (counted pl h.faces fun f _ => colFace pl f) ?_
  refine several [_, _, _] (a := (l.vertnum, l.vertices.map (Vec3.map again), l.vertids))
    (all (long pl _) <| all (rep h.vertices fun v _ => floatTriple pl v) <|
      all (rep_self h.vertids fun v _ => sshort pl v) <| pure_all _) ?_
  refine several [_, _, _, _, _] (all (floatTriple pl _) <| all (floatTriple pl _) <| all (byte _) <|
      all (floatTriple pl _) <| all (floatTriple pl _) <| pure_all _) ?_
  refine several [_, _] (counted pl h.ydata fun y _ => colY pl y) ?_
  refine several [_, _] (a := (l.znum, l.zdata))
    (by simpa using counted (g := id) pl h.zdata fun y _ => sshort pl y) ?_
  refine all (a := (l.anum, l.adata)) ?_ (pure_all _)
  have ha := h.adata
  unfold readAdata
  split_ifs at ha ⊢
  · simpa using counted (g := id) pl ha fun y _ => long pl y
  · rw [ha.1, ha.2]
    exact pure _

theorem colSub (pl : Plat) (version : Int) (s : ColSub F ColFace) (h : ColSubWF version s) :
    Follows (readSub pl version) (writeSub pl version s) (s.map again fun f => f.stored.obj) :=
  all (long pl _) <| all (rep h.count fun l hl => colLod pl version l (h.lods l hl)) <| pure_all _

theorem colGeom (pl : Plat) (version : Int) (g : ColGeom F ColFace) (h : ColGeomWF version g) :
    Follows (readGeom pl version) (writeGeom pl version g) (g.map again fun f => f.stored.obj) :=
  all (long pl _) <| all (rep h.count fun s hs => colSub pl version s (h.subgeoms s hs)) <| pure_all _

theorem col (pl : Plat) (m : ColMesh F ColFace) (h : ColWF m) :
    Follows (readCol pl) (writeCol pl m) (m.map again fun f => f.stored.obj) :=
  all (long pl _) <| all (long pl _) <| all (long pl _) <|
    all (rep h.count fun g hg => colGeom pl m.version g (h.geoms g hg)) <| pure_all _

end Follows

/-! ## What `save` raises -/

/-- Nothing but `struct.error` is raised. -/
def StructOnly (w : Out) : Prop := ∀ e, w.err = some e → e = .structError

namespace StructOnly

theorem of_none {w : Out} (h : w.err = none) : StructOnly w := fun e he => by rw [h] at he; cases he

theorem seq {w v : Out} (h1 : StructOnly w) (h2 : StructOnly v) : StructOnly (w.seq v) := by
  rcases w with ⟨bs, _ | e⟩
  · rw [Out.mk_none_seq]
    exact h2
  · rw [Out.mk_some_seq]
    exact h1

theorem nil : StructOnly .nil := of_none rfl

theorem all {l : List Out} (h : ∀ w ∈ l, StructOnly w) : StructOnly (Out.all l) := by
  induction l with
  | nil => exact nil
  | cons w l ih => exact seq (h w (by simp)) (ih fun v hv => h v (by simp [hv]))

theorem each {γ : Type} {w : γ → Out} {l : List γ} (h : ∀ c, StructOnly (w c)) : StructOnly (Out.each w l) := by
  induction l with
  | nil => exact nil
  | cons c l ih => exact seq (h c) ih

theorem long (pl : Plat) (v : Int) : StructOnly (writeLong pl v) := by
  intro e h
  unfold writeLong at h
  split_ifs at h <;> cases h
  rfl

theorem sshort (pl : Plat) (v : Int) : StructOnly (writeSShort pl v) := by
  intro e h
  unfold writeSShort at h
  split_ifs at h <;> cases h
  rfl

theorem byte (v : Int) : StructOnly (writeByte v) := by
  intro e h
  unfold writeByte at h
  split_ifs at h <;> cases h
  rfl

variable {F : Type} [FCodec F]

theorem colLod (pl : Plat) (version : Int) (l : ColLod F ColFace) : StructOnly (writeLod pl version l) := by
  have hf : ∀ f : ColFace, StructOnly (writeFace pl f) := fun f =>
    all (by simp only [List.forall_mem_cons]; exact ⟨sshort _ _, sshort _ _, sshort _ _, sshort _ _, by simp⟩)
  have hy : ∀ y : ColY F, StructOnly (writeY pl y) := fun y =>
    all (by
      simp only [List.forall_mem_cons]
      exact ⟨of_none rfl, sshort _ _, sshort _ _, long _ _, long _ _, by simp⟩)
  have h3 : ∀ v : Vec3 F, StructOnly (writeFloat3 pl v) := fun v => of_none rfl
  unfold writeLod
  refine all ?_
  simp only [List.forall_mem_cons]
  refine ⟨?_, long _ _, each hf, long _ _, each h3, each (sshort pl), h3 _, h3 _, byte _, h3 _, h3 _,
    long _ _, each hy, long _ _, each (sshort pl), ?_, by simp⟩
  · split_ifs
    · exact long _ _
    · exact nil
  · split_ifs
    · exact seq (long _ _) (seq (each (long pl)) nil)
    · exact nil

theorem col (pl : Plat) (m : ColMesh F ColFace) : StructOnly (writeCol pl m) :=
  seq (long _ _) <| seq (long _ _) <| seq (long _ _) <| seq (each fun _ => seq (long _ _) <|
    seq (each fun _ => seq (long _ _) <| seq (each fun l => colLod pl _ l) nil) nil) nil

end StructOnly

/-- The corners of the faces of a mesh are among the numbers stored. -/
theorem corner_item {h : Heap} {c : ColMesh F64 Nat} {z : ColLod F64 Nat} (hz : z ∈ c.lods) {f : Nat}
    (hf : f ∈ z.faces) {v : Int} (hv : v ∈ (h f).corners) : Item.sshort v ∈ (c.view h).stored.items := by
  simp only [ColMesh.lods, List.mem_flatMap] at hz
  obtain ⟨g, hg, s, hs, hl⟩ := hz
  simp only [ColMesh.items, ColMesh.stored, ColMesh.view, ColMesh.map, List.mem_append, List.mem_flatMap,
    List.mem_map]
  refine .inr ⟨_, ⟨_, ⟨g, hg, rfl⟩, rfl⟩, ?_⟩
  simp only [ColGeom.items, ColGeom.map, List.mem_cons, List.mem_flatMap, List.mem_map]
  refine .inr ⟨_, ⟨_, ⟨s, hs, rfl⟩, rfl⟩, ?_⟩
  simp only [ColSub.items, ColSub.map, List.mem_cons, List.mem_flatMap, List.mem_map]
  refine .inr ⟨_, ⟨_, ⟨z, hl, rfl⟩, rfl⟩, ?_⟩
  have key : Item.sshort v ∈ ((z.faces.map h).map ColFace.stored).flatMap FileFace.items := by
    simp only [List.mem_flatMap, List.mem_map]
    refine ⟨_, ⟨_, ⟨f, hf, rfl⟩, rfl⟩, ?_⟩
    simp only [ColFace.corners, List.mem_cons, List.not_mem_nil, or_false] at hv
    rcases hv with rfl | rfl | rfl <;> simp [FileFace.items, ColFace.stored]
  simp only [ColLod.items, ColLod.map, List.mem_append, List.mem_cons]
  exact .inl (.inl (.inl (.inl (.inl (.inr (.inr key))))))
end Bf2
