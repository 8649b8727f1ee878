import Verif.Props.Format

/-!
# C58: the file layout

`Verif/Layout.lean` lists the items of a mesh file in order, with their byte representation.  The
loader accepts exactly the files of that layout, and the exporter writes it.
-/

namespace Bf2

/-- **C58.** A file loads to the 32-bit words and integers of `r` exactly when `r` is well-formed, is
of that kind, every item fits its field, and the file consists of the items of `r` in order. -/
theorem C58_loads_iff_layout (pl : Plat) (k : Kind) (file : Bytes) (r : Mesh W) :
    load pl k file = .ok r ↔
      MeshWF r ∧ r.kind = k ∧ (∀ i ∈ r.items, i.Fits pl) ∧ file = layout pl r.items := by
  rw [load_raw_iff]
  constructor
  · rintro ⟨h1, h2, h3⟩
    exact ⟨h1, h2, (fileBytes_writes h1 _).1 h3⟩
  · rintro ⟨h1, h2, h3⟩
    exact ⟨h1, h2, (fileBytes_writes h1 _).2 h3⟩

/-- **C58**, Python floats: what the constructor gives is such a mesh with every word unpacked. -/
theorem C58_python_floats (pl : Plat) (k : Kind) (file : Bytes) (m : Mesh F64) :
    load pl k file = .ok m ↔
      ∃ r : Mesh W, MeshWF r ∧ r.kind = k ∧ (∀ i ∈ r.items, i.Fits pl) ∧ file = layout pl r.items ∧
        m = r.map unpackF := by
  rw [load_ok_map]
  constructor
  · rintro ⟨r, hr, rfl⟩
    obtain ⟨h1, h2, h3, h4⟩ := (C58_loads_iff_layout pl k file r).1 hr
    exact ⟨r, h1, h2, h3, h4, rfl⟩
  · rintro ⟨r, h1, h2, h3, h4, rfl⟩
    exact ⟨r, (C58_loads_iff_layout pl k file r).2 ⟨h1, h2, h3, h4⟩, rfl⟩

/-- **C58**, export: writing a well-formed mesh succeeds exactly when its index array is a tuple and
every item fits its field, and then writes the items of the mesh, floats packed, in order. -/
theorem C58_export_writes_layout (pl : Plat) (m : Mesh F64) (hw : MeshWF m) (bs : Bytes) :
    exportMesh pl m = ⟨bs, none⟩ ↔
      (∃ l, m.index = .many l) ∧ (∀ i ∈ (m.map packF).items, i.Fits pl) ∧
        bs = layout pl (m.map packF).items := by
  have hm := exportMesh_map (F := F64) (pl := pl) m
  have he : ∀ l, m.index = .many l → exportMesh pl m = fileBytes pl (m.map packF) := fun l hl =>
    hm.trans (exportMesh_many (m := m.map packF) (l := l) hl)
  constructor
  · intro h
    have hl := C02_reload_of_export pl m bs hw h
    obtain ⟨l, hl⟩ : ∃ l, m.index = .many l := by
      cases hi : m.index with
      | many l => exact ⟨l, rfl⟩
      | one a =>
        have h1 : m.indexnum = 1 := by have := hw.index; rw [hi] at this; exact this
        have h9 := (C09_one_index_never_exported pl m.kind bs _ hl h1).2
        rw [exportMesh_map, Mesh.map_map] at h9
        rw [exportMesh_map] at h
        have : exportMesh pl (m.map FCodec.pack) = ⟨bs, none⟩ := h
        rw [show (m.map ((FCodec.pack (F := F64)) ∘ fun x => unpackF (packF x))) =
          m.map (FCodec.pack (F := F64)) from congrArg (fun f => m.map f)
            (funext packF_unpackF_packF), this] at h9
        cases h9
    exact ⟨⟨l, hl⟩, (fileBytes_writes (hw.map packF) bs).1 ((he l hl).symm.trans h)⟩
  · rintro ⟨⟨l, hl⟩, h⟩
    exact (he l hl).trans ((fileBytes_writes (hw.map packF) bs).2 h)

/-- **C58**, the format is unambiguous: two meshes of the same kind with the same file are equal. -/
theorem C58_layout_injective (pl : Plat) (r r' : Mesh W) (h : MeshWF r) (h' : MeshWF r')
    (hk : r.kind = r'.kind) (hf : ∀ i ∈ r.items, i.Fits pl) (hf' : ∀ i ∈ r'.items, i.Fits pl)
    (he : layout pl r.items = layout pl r'.items) : r = r' := by
  have h1 := (C58_loads_iff_layout pl r.kind _ r).2 ⟨h, rfl, hf, rfl⟩
  have h2 := (C58_loads_iff_layout pl r.kind _ r').2 ⟨h', hk.symm, hf', he⟩
  rw [h1] at h2
  exact Except.ok.inj h2

/-- The sample file, loaded, has the layout of its mesh; its first items are the header (version 11)
and the geom table, and after the vertex attributes come the vertex format, stride and count. -/
example : (load (F := W) win staticKind evilBox).toOption.map (fun r =>
      (decide (layout win r.items = evilBox), r.items.take 9, (r.items.drop 45).take 5)) =
    some (true, [.long 0, .long 11, .long 0, .long 0, .long 0, .byte 0, .long 1, .long 1, .long 10],
      [.short 255, .short 0, .short 17, .short 0, .long 4]) := by
  decide +kernel

/-- The layout depends on the kind and the version: the same tiny mesh read as skinned is no file. -/
example : load (F := W) win staticKind (layout win tiny.items) = .ok tiny ∧
    (load (F := W) win skinnedKind (layout win tiny.items)).isOk = false ∧
    load (F := W) linux staticKind (layout linux tiny.items) = .ok tiny := by
  decide +kernel

/-- Same bytes on a big-endian machine are other numbers. -/
example : longBytes win 258 = [2, 1, 0, 0] ∧ longBytes ⟨false, true⟩ 258 = [0, 0, 1, 2] ∧
    longBytes win (-2) = [254, 255, 255, 255] ∧
    (Item.word 0x3f800000).bytes win = [0, 0, 0x80, 0x3f] ∧
    (Item.text [0x61]).bytes win = [1, 0, 0, 0, 0x61] := by decide +kernel

end Bf2
