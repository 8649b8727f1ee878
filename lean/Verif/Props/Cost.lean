import Verif.CostLemmas
import Verif.StringLemmas
import Verif.FailedLemmas
import Verif.ColLemmas
import Verif.Sample
import Verif.Props.Object

/-!
# C148: how many objects loading a file makes
-/

namespace Bf2
variable {F : Type} [FCodec F]

/-- Counting the objects does not change what is loaded or raised. -/
theorem C148_same (pl : Plat) (kind : Kind) (file : Bytes) :
    (loadTally F pl kind file).2 = load pl kind file := loadTally_erase pl kind file

/-- **C148.** A file that loads makes exactly the objects of the mesh, and is longer than a C `long` for each
of them. -/
theorem C148_loaded (pl : Plat) (kind : Kind) (file : Bytes) (m : Mesh F) (h : load pl kind file = .ok m) :
    (loadTally F pl kind file).1 = m.objects ∧ pl.longSize * (m.objects + 11) + 1 ≤ file.length := by
  rw [← C148_same] at h
  unfold loadTally at h ⊢
  rcases hb : tallyBody (F := F) pl kind file with ⟨n, e | ⟨m', _ | ⟨b, r⟩⟩⟩
  · rw [hb] at h; cases h
  · rw [hb] at h
    cases h
    obtain ⟨u, hu, h1, h2⟩ := tells_body pl kind file n m [] hb
    refine ⟨h1, ?_⟩
    rw [List.length_nil, Nat.zero_add] at hu
    omega
  · rw [hb] at h; cases h

/-- **C148.** No file makes more objects than the largest number of a C `long` for each `long` it has room
for, whether it loads or not. -/
theorem C148_limit (pl : Plat) (kind : Kind) (file : Bytes) :
    pl.longSize * (loadTally F pl kind file).1 ≤ 2 ^ (8 * pl.longSize - 1) * file.length := by
  have h := Capped.body (F := F) (pl := pl) kind file
  unfold loadTally
  rcases hb : tallyBody (F := F) pl kind file with ⟨n, e | ⟨m, _ | ⟨b, r⟩⟩⟩ <;> rw [hb] at h <;>
  · exact Nat.le_trans (Nat.le_add_right _ _) h

/-! ## Short files that make very many objects -/

/-- A header, the number of geoms and a part of the table of geoms, and nothing else. -/
def cutTable (pl : Plat) (h : Head) (u1 : Int) (geomnum : Nat) (lodnums : List Nat) : Bytes :=
  layout pl (h.items ++ [.byte u1, .long geomnum] ++ lodnums.map fun n : Nat => Item.long n)

theorem count_reads (pl : Plat) {v : Int} (h : IsLong pl v) (r : Bytes) :
    tallyCount pl (longBytes pl v ++ r) = (v.toNat, .ok (v, r)) := by
  have := (Reads.long (pl := pl) v).ok (by simpa [Item.Fits] using h) r
  simp only [layout_cons, layout_nil, Item.bytes, List.append_nil] at this
  unfold tallyCount
  rw [Tally.bind_run]
  unfold Tally.lift
  rw [this]
  show (0 + (v.toNat + 0), _) = _
  rw [Nat.zero_add, Nat.add_zero]
  rfl

theorem count_nil (pl : Plat) : tallyCount pl [] = (0, .error .structError) := by
  unfold tallyCount
  rw [Tally.bind_run]
  unfold Tally.lift
  rw [Follows.readLong_nil]

theorem counts_read (pl : Plat) (ns : List Nat) (h : ∀ n ∈ ns, IsLong pl n) (k : Nat) (hk : ns.length ≤ k) :
    Tally.rep (tallyCount pl) k (layout pl (ns.map fun n : Nat => Item.long n)) =
      (ns.sum, if ns.length = k then .ok (ns.map fun n : Nat => (n : Int), []) else .error .structError) := by
  induction ns generalizing k with
  | nil =>
    cases k with
    | zero => rfl
    | succ k =>
      rw [Tally.rep, Tally.bind_run]
      rw [List.map_nil, layout_nil, count_nil]
      rfl
  | cons n ns ih =>
    cases k with
    | zero => simp at hk
    | succ k =>
      rw [Tally.rep, Tally.bind_run, List.map_cons, layout_cons, Item.bytes,
        count_reads pl (h n (by simp))]
      dsimp only
      rw [Tally.bind_run, ih (fun x hx => h x (by simp [hx])) k (by simpa using hk)]
      by_cases hl : ns.length = k
      · simp [hl, Tally.pure_run]
      · simp [hl]

/-- **C148.** A file that ends inside or just behind the table of geoms raises `struct.error`, after the
loader has made all the geoms and lods the table announces. -/
theorem C148_cut (pl : Plat) (kind : Kind) (h : Head) (u1 : Int) (geomnum : Nat) (lodnums : List Nat)
    (fits : ∀ i ∈ h.items ++ [.byte u1, .long geomnum] ++ lodnums.map fun n : Nat => Item.long n, i.Fits pl)
    (short : lodnums.length ≤ geomnum) :
    loadTally F pl kind (cutTable pl h u1 geomnum lodnums) =
      (geomnum + lodnums.sum, .error .structError) := by
  have hh : loadHead pl (layout pl h.items ++ (layout pl [.byte u1, .long geomnum] ++
      layout pl (lodnums.map fun n : Nat => Item.long n))) = .ok (h, layout pl [.byte u1, .long geomnum] ++
      layout pl (lodnums.map fun n : Nat => Item.long n)) :=
    (Reads.of_inverts (loadHead_inv pl) trivial (exportHead_writes h) (by simp [Head.items])).ok
      (fun i hi => fits i (by simp [hi])) _
  have hb : readByte (layout pl [.byte u1] ++ (layout pl [.long geomnum] ++
      layout pl (lodnums.map fun n : Nat => Item.long n))) = .ok (u1, layout pl [.long geomnum] ++
      layout pl (lodnums.map fun n : Nat => Item.long n)) :=
    (Reads.of_inverts readByte_inv trivial (writeByte_writes u1) (by simp)).ok
      (fun i hi => fits i (by simp at hi; simp [hi])) _
  have hc := count_reads pl (v := geomnum) (fits (.long geomnum) (by simp))
    (layout pl (lodnums.map fun n : Nat => Item.long n))
  have hr := counts_read pl lodnums (fun n hn => fits (.long n) (by simp [hn])) geomnum short
  have hsplit : layout pl [.byte u1, .long geomnum] ++ layout pl (lodnums.map fun n : Nat => Item.long n) =
      layout pl [.byte u1] ++ (layout pl [.long geomnum] ++ layout pl (lodnums.map fun n : Nat => Item.long n)) := by
    simp [layout_cons, layout_nil]
  have hlong : layout pl [.long geomnum] ++ layout pl (lodnums.map fun n : Nat => Item.long n) =
      longBytes pl geomnum ++ layout pl (lodnums.map fun n : Nat => Item.long n) := by
    simp [layout_cons, layout_nil, Item.bytes]
  have body : tallyBody (F := F) pl kind (cutTable pl h u1 geomnum lodnums) =
      (geomnum + lodnums.sum, .error .structError) := by
    unfold tallyBody cutTable
    rw [layout_append, layout_append, List.append_assoc, Tally.lift_bind hh, hsplit, Tally.lift_bind hb, hlong]
    refine Tally.bind_made hc ?_
    rw [Int.toNat_natCast]
    by_cases hl : lodnums.length = geomnum
    · rw [if_pos hl] at hr
      refine Tally.bind_made (k := 0) hr ?_
      exact Tally.bind_raised (count_nil pl)
    · rw [if_neg hl] at hr
      exact Tally.bind_raised hr
  unfold loadTally
  rw [body]

theorem cutTable_length (pl : Plat) (h : Head) (u1 : Int) (geomnum : Nat) (lodnums : List Nat) :
    (cutTable pl h u1 geomnum lodnums).length = pl.longSize * (6 + lodnums.length) + 1 := by
  have hl : ∀ v, (longBytes pl v).length = pl.longSize := fun v => by
    unfold longBytes
    rw [intBytes_length]
    rfl
  have hs : (layout pl (lodnums.map fun n : Nat => Item.long n)).length = pl.longSize * lodnums.length := by
    induction lodnums with
    | nil => rfl
    | cons n ns ih =>
      rw [List.map_cons, layout_cons, List.length_append, ih, Item.bytes, hl, List.length_cons, Nat.mul_add]
      omega
  unfold cutTable
  rw [layout_append, List.length_append, hs]
  simp only [Head.items, List.cons_append, List.nil_append, layout_cons, layout_nil, Item.bytes, List.length_append, hl,
    intBytes_length, List.length_nil, Nat.mul_add]
  omega

/-- **C148.** 25 bytes are enough to have 2147483647 geoms made, and every four bytes more to have 2147483648
objects more made, before `struct.error` is raised: no constant number of objects per byte is a limit below
that of `C148_limit`. -/
theorem C148_bomb (kind : Kind) :
    (∃ file : Bytes, file.length = 25 ∧
      loadTally F win kind file = (2147483647, .error .structError)) ∧
    ∀ k, k ≤ 2147483647 → ∃ file : Bytes, file.length = 25 + 4 * k ∧
      loadTally F win kind file = (k * 2147483648, .error .structError) := by
  constructor
  · refine ⟨cutTable win ⟨0, 11, 0, 0, 0⟩ 0 2147483647 [], by rw [cutTable_length]; rfl, ?_⟩
    rw [C148_cut win kind _ _ _ _ ?_ (by simp)]
    · simp
    · decide +kernel
  · intro k hk
    refine ⟨cutTable win ⟨0, 11, 0, 0, 0⟩ 0 k (List.replicate k 2147483647), ?_, ?_⟩
    · rw [cutTable_length, List.length_replicate]
      show 4 * (6 + k) + 1 = _
      omega
    · rw [C148_cut win kind _ _ _ _ ?_ (by simp)]
      · rw [List.sum_replicate, smul_eq_mul]
        congr 1
        omega
      · intro i hi
        simp only [Head.items, List.mem_append, List.mem_cons, List.not_mem_nil, or_false, List.mem_map,
          List.mem_replicate] at hi
        rcases hi with ((rfl | rfl | rfl | rfl | rfl) | rfl | rfl) | ⟨n, ⟨_, rfl⟩, rfl⟩
        all_goals first | decide | skip
        show -2147483648 ≤ (k : Int) ∧ (k : Int) ≤ 2147483647
        omega

/-- The sample file of the repository makes 13 objects. -/
example : ∃ m : Mesh F64, load win staticKind evilBox = .ok m ∧ m.objects = 13 ∧
    (loadTally F64 win staticKind evilBox).1 = 13 := by
  have h : ∃ m : Mesh F64, load win staticKind evilBox = .ok m := isOk_get (by decide +kernel)
  obtain ⟨m, h⟩ := h
  have hn : (loadTally F64 win staticKind evilBox).1 = 13 := by decide +kernel
  exact ⟨m, h, (C148_loaded win staticKind evilBox m h).1.symm.trans hn, hn⟩

end Bf2
