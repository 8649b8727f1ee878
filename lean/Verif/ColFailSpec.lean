import Verif.ColSpec

/-! # Collision meshes with an unknown collision type -/

namespace Bf2

local notation "W" => BitVec 32

/-- The file has version 9 or later and is well-formed up to the type of some lod, which is not 0 to 4:
complete geoms, then complete subgeoms of the next geom, then complete lods of the next subgeom. -/
structure BadColtype (pl : Plat) (file : Bytes) : Prop where
  out : ∃ (u1 version geomnum subgeomnum lodnum t : Int) (gs : List (ColGeom W FileFace))
    (ss : List (ColSub W FileFace)) (ls : List (ColLod W FileFace)) (items : List Item) (rest : Bytes),
    9 ≤ version ∧ (∀ g ∈ gs, ColGeomWF version g) ∧ (∀ s ∈ ss, ColSubWF version s) ∧
    (∀ l ∈ ls, ColLodWF version l) ∧
    (gs.length : Int) < geomnum ∧ (ss.length : Int) < subgeomnum ∧ (ls.length : Int) < lodnum ∧
    ¬ (0 ≤ t ∧ t ≤ 4) ∧
    items = [.long u1, .long version, .long geomnum] ++ gs.flatMap (ColGeom.items version) ++
      [.long subgeomnum] ++ ss.flatMap (ColSub.items version) ++
      [.long lodnum] ++ ls.flatMap (ColLod.items version) ++ [.long t] ∧
    (∀ i ∈ items, i.Fits pl) ∧ file = layout pl items ++ rest

end Bf2
