import Verif.SizeSpec
import Verif.LayoutLemmas
import Verif.ColLemmas
import Verif.MapLemmas

/-! # The length of a layout -/

namespace Bf2

local notation "W" => BitVec 32

variable {F G : Type} (pl : Plat)

theorem longBytes_length (v : Int) : (longBytes pl v).length = pl.cLong := intBytes_length _ _ _

theorem layout_flatMap {α : Type} (l : List α) (f : α → List Item) :
    (layout pl (l.flatMap f)).length = (l.map fun a => (layout pl (f a)).length).sum := by
  induction l with
  | nil => rfl
  | cons a l ih => rw [List.flatMap_cons, layout_append, List.length_append, ih, List.map_cons, List.sum_cons]

theorem layout_const {α : Type} (l : List α) (f : α → Item) (n : Nat) (h : ∀ a, ((f a).bytes pl).length = n) :
    (layout pl (l.map f)).length = n * l.length := by
  induction l with
  | nil => rfl
  | cons a l ih =>
    rw [List.map_cons, layout_cons, List.length_append, h, ih, List.length_cons, Nat.mul_succ, Nat.add_comm]

theorem layout_words (l : List W) : (layout pl (l.map .word)).length = 4 * l.length :=
  layout_const pl l _ 4 fun _ => intBytes_length _ _ _

theorem Vec3.layout_length (v : Vec3 W) : (layout pl v.items).length = 12 := layout_words pl v.floats

theorem Mat4.layout_length (m : Mat4 W) : (layout pl m.items).length = 64 := layout_words pl m.floats

theorem Head.layout_length (h : Head) : (layout pl h.items).length = 5 * pl.cLong := by
  simp only [Head.items, layout_cons, layout_nil, Item.bytes, List.length_append, longBytes_length, List.length_nil]
  omega

theorem VAttr.layout_length (a : VAttr) : (layout pl a.items).length = 8 := by
  simp only [VAttr.items, layout_cons, layout_nil, Item.bytes, List.length_append, intBytes_length, List.length_nil]

theorem Bone.layout_length (b : Bone W) : (layout pl b.items).length = pl.cLong + 64 := by
  simp only [Bone.items, layout_cons, Item.bytes, List.length_append, longBytes_length, Mat4.layout_length]

theorem sum_const {α : Type} (l : List α) (f : α → Nat) (n : Nat) (h : ∀ a ∈ l, f a = n) :
    (l.map f).sum = n * l.length := by
  induction l with
  | nil => rfl
  | cons a l ih =>
    rw [List.map_cons, List.sum_cons, h a (List.mem_cons_self ..), ih fun b hb => h b (List.mem_cons_of_mem _ hb),
      List.length_cons, Nat.mul_succ, Nat.add_comm]

theorem Rig.layout_length (r : Rig W) :
    (layout pl r.items).length = pl.cLong + (pl.cLong + 64) * r.bones.length := by
  simp only [Rig.items, layout_cons, Item.bytes, List.length_append, longBytes_length, layout_flatMap,
    Bone.layout_length]
  rw [sum_const _ _ _ fun _ _ => rfl]

theorem layout_texts (l : List Bytes) :
    (layout pl (l.map .text)).length = pl.cLong * l.length + (l.map List.length).sum := by
  induction l with
  | nil => rfl
  | cons a l ih =>
    simp only [List.map_cons, layout_cons, List.length_append, ih, Item.bytes, longBytes_length, List.length_cons,
      List.sum_cons, Nat.mul_succ]
    omega

theorem Mat.layout_length {k : Kind} {version : Int} {a : Mat W} (wf : MatWF k version a) :
    (layout pl a.items).length = a.info.size pl.cLong (boxSize k version) := by
  have hm := wf.mmin
  have hx := wf.mmax
  simp only [Mat.items, layout_append, List.length_append, layout_texts, layout_cons, layout_nil, Item.bytes,
    longBytes_length, List.length_nil, MatInfo.size, Mat.info, boxSize]
  have hb : ∀ b : Option (Vec3 W), b.isSome = (!k.isSkinned && version == 11) →
      (layout pl (optItems Vec3.items b)).length = if k.isSkinned = false ∧ version = 11 then 12 else 0 := by
    intro b hb
    cases b with
    | none =>
      rw [if_neg]
      · rfl
      · rintro ⟨h1, h2⟩
        simp [h1, h2] at hb
    | some v =>
      rw [if_pos]
      · exact Vec3.layout_length pl v
      · simp only [Option.isSome_some] at hb
        cases hk : k.isSkinned
        · simpa [hk] using hb
        · simp [hk] at hb
  have ha : (layout pl (optItems (fun a => [Item.long a]) a.alphamode)).length =
      pl.cLong * a.alphamode.toList.length := by
    cases a.alphamode with
    | none => rfl
    | some v => simp [optItems, layout_cons, layout_nil, Item.bytes, longBytes_length]
  rw [ha, hb _ hm, hb _ hx]
  generalize pl.cLong = n
  generalize a.alphamode.toList.length = x
  rw [Nat.mul_add, Nat.mul_add]
  split_ifs <;> omega

theorem Lod.layout_length {k : Kind} {version : Int} {l : Lod W} (wf : LodMatsWF k version l) :
    (layout pl (l.nodeItems k)).length + (layout pl l.matItems).length = l.info.size pl.cLong k version := by
  have hp : (layout pl (optItems Vec3.items l.pivot)).length = 12 * l.pivot.toList.length := by
    cases l.pivot with
    | none => rfl
    | some v => exact Vec3.layout_length pl v
  have hm : (layout pl l.matItems).length =
      pl.cLong + ((l.materials.map Mat.info).map (MatInfo.size pl.cLong (boxSize k version))).sum := by
    simp only [Lod.matItems, layout_cons, Item.bytes, List.length_append, longBytes_length, layout_flatMap,
      List.map_map]
    congr 2
    exact List.map_congr_left fun a ha => Mat.layout_length pl (wf.each a ha)
  rw [hm]
  simp only [Lod.nodeItems, LodInfo.size, Lod.info, layout_append, List.length_append, Vec3.layout_length, hp]
  split_ifs
  · simp only [layout_cons, Item.bytes, List.length_append, longBytes_length, layout_flatMap, Rig.layout_length]
    omega
  · simp only [layout_cons, Item.bytes, List.length_append, longBytes_length, layout_flatMap, Mat4.layout_length]
    rw [sum_const _ _ 64 fun _ _ => rfl]
    omega

theorem sum_split {α : Type} (l : List α) (f g h : α → Nat) (e : ∀ a ∈ l, f a + g a = h a) :
    (l.map f).sum + (l.map g).sum = (l.map h).sum := by
  induction l with
  | nil => rfl
  | cons a l ih =>
    have h1 := e a (List.mem_cons_self ..)
    have h2 := ih fun b hb => e b (List.mem_cons_of_mem _ hb)
    simp only [List.map_cons, List.sum_cons]
    omega

theorem Mesh.layout_length {m : Mesh W} (wf : MeshWF m) :
    (layout pl m.items).length = m.restSize pl + m.dataSize := by
  have hg : (m.geoms.map fun g => (g.lods.map fun l => (layout pl (l.nodeItems m.kind)).length).sum).sum +
      (m.geoms.map fun g => (g.lods.map fun l => (layout pl l.matItems).length).sum).sum =
      (m.geoms.map fun g => (g.info.2.map (LodInfo.size pl.cLong m.kind m.head.version)).sum).sum := by
    refine sum_split _ _ _ _ fun g hg => ?_
    rw [sum_split g.lods _ _ _ fun l hl => Lod.layout_length pl ((wf.geom g hg).mats l hl)]
    simp only [Geom.info, List.map_map]
    rfl
  simp only [Mesh.items, Preamble.items, Mesh.preamble, layout_append, List.length_append, layout_words,
    layout_flatMap, Head.layout_length, VAttr.layout_length, layout_cons, layout_nil, List.length_nil,
    layout_const pl _ Item.long pl.cLong (fun v => longBytes_length pl v),
    layout_const pl _ Item.short 2 (fun v => intBytes_length _ _ _), List.length_map]
  have hu : (layout pl (if m.kind.isSkinned then [] else [.long m.u2])).length =
      pl.cLong * (if m.kind.isSkinned then 0 else 1) := by
    split_ifs
    · rfl
    · simp [layout_cons, layout_nil, Item.bytes, longBytes_length]
  rw [hu, sum_const _ _ 8 fun _ _ => rfl]
  simp only [Item.bytes, longBytes_length, intBytes_length, Mesh.restSize, Mesh.dataSize]
  rw [← hg, Nat.mul_add, Nat.mul_add]
  omega

/-! ## Other floats, same size -/

theorem Lod.map_info_size (f : F → G) (n : Nat) (k : Kind) (v : Int) (l : Lod F) :
    (l.map f).info.size n k v = l.info.size n k v := by
  unfold LodInfo.size Lod.info Lod.map
  simp only [List.map_map, List.length_map]
  congr 2
  · cases l.pivot <;> rfl
  · split_ifs
    · congr 1
      refine List.map_congr_left fun r _ => ?_
      simp [Rig.map]
    · rfl

theorem Mesh.map_restSize (f : F → G) (m : Mesh F) : (m.map f).restSize pl = m.restSize pl := by
  unfold Mesh.restSize Mesh.map
  simp only [List.length_map, List.map_map]
  congr 2
  refine List.map_congr_left fun g _ => ?_
  simp only [Function.comp, Geom.info, Geom.map, List.map_map]
  congr 1
  exact List.map_congr_left fun l _ => Lod.map_info_size f _ _ _ l

theorem Mesh.map_dataSize (f : F → G) (m : Mesh F) : (m.map f).dataSize = m.dataSize := by
  simp [Mesh.dataSize, Mesh.map]

end Bf2
