# Formal model of rpoxo/bf2mesh in Lean 4

The package `/repo/bf2mesh` (`io.py`, `bf2types.py`, `mesh.py`, `visiblemesh.py`, `BundledMesh.py`) is
modelled, and of `/repo/deprecated` the collision meshes (`modcolmesh.py` with what it uses of `modIO.py`
and `modVec3.py`), `modmesh.py` (loader, writer, editing methods, `__eq__`), the functions of the scripts
`mesh_order_fix.py` and `box_modify.py`, the objects of `mock_mesh.py` and the parsers of `bf2.py`, function by
function as a shallow embedding: every Python function is a Lean function, every exception a value. The properties C01, C02, ... of `properties.jsonl` are theorems
about these functions; `MANIFEST.json` lists the theorems of each property.

## Modules

Model (each definition cites the lines it models):

| Lean module | models |
|---|---|
| `Py` | Python runtime pieces: exceptions as values, slicing, indexing, file reads and writes, loops that mutate and may raise half-way |
| `Float64` | IEEE-754 binary32/binary64 as bit patterns: `struct` `f` pack/unpack, `+ - *`, `/ 2`, `<`, int true division followed by `int()` |
| `Codec` | `bf2mesh/io.py` |
| `Mesh` | data classes of `visiblemesh.py`, `__load`, `__export` |
| `Edit` | `vertex_size`, `change_geoms_order`, `translate`, `rotate`, `canMerge`, `merge`, `update_boundaries`, `get_lod_center_offset` |
| `Object` | `BF2Mesh.__init__`, `VisibleMesh.__init__`, `__enter__`, `export`, paths and file system |
| `Equal` | the `__eq__` methods of `visiblemesh.py` |
| `ColMesh` | `deprecated/modcolmesh.py`: load, save, translate, merge, `__eq__` |
| `VecOps` | `deprecated/modVec3.py` except `__str__`, `__iter__` |
| `OldMesh` | `deprecated/modmesh.py`: load and save |
| `OldEdit` | `deprecated/modmesh.py`: vertex access, bounds, translate, rotate, merge and the other editing methods |
| `OldScripts` | `deprecated/mesh_order_fix.py`: `copy_geom_table`; `deprecated/box_modify.py`: `remove_vertice_id`, `replace_index_id`, `remove_attribute` (its `edit_vertex` and `rename_texture` are those of `modmesh.py`) |
| `OldBox` | `deprecated/mock_mesh.py`: the objects `Box()` and `ColBox()` |
| `OldSample` | `deprecated/modmesh.py`: `LoadBF2Mesh` with `loadSamples`, `LoadBF2Sample` |
| `OldEqual` | `deprecated/modmesh.py`: the `__eq__` methods |
| `OldMod` | `deprecated/bf2.py` except `get_wings` and `Jet` |
| `OldWings` | `get_wings` and `Jet` of `deprecated/bf2.py` |
| `Readme` | the three programs of `README.md` |
| `OldPrograms` | the `main` functions of `deprecated/box_modify.py` and `deprecated/mesh_order_fix.py`, `deprecated/box_new.py` as meant, `deprecated/mesh_read.py`: `display_mesh_data` |
| `Chain` | a loop of `VisibleMesh.merge` over several meshes |
| `OldSmp` | `deprecated/modmesh.py`: `smp_sample`, `smp_face` |
| `OldWriteTests` | `deprecated/tests_vismesh_write.py`: all tests |
| `OldGenTests` | `deprecated/tests_vismesh_generator.py`: all tests |
| `OldEditTests` | the skipped tests of `deprecated/tests_vismesh_edit.py`, lines 151-329 |
| `Windows` | `mesh.py:10-15` with `ntpath.splitext` |
| `ColTests` | the tests of `deprecated/tests_colmesh_write.py` and `test_can_merge_geoms` of `deprecated/tests_colmesh_edit.py` |
| `OldReadTests` | the tests of `deprecated/tests_vismesh_read.py`, `tests_samples_read.py` and `tests_colmesh_read.py` that are not skipped, without `test_for_data` |
| `OldNums` | `translate` and `rotate` of `deprecated/modmesh.py` and `translate` of `deprecated/modcolmesh.py` with integers among the numbers |
| `ColChain` | calls of `merge` of `deprecated/modcolmesh.py` on one mesh, one after the other |
| `OldChain` | a loop of `merge` of `deprecated/modmesh.py` over several meshes |
| `WinDir` | `os.path.dirname` on Windows and `visiblemesh.py:206-208` with it |
| `OldShow` | `display_material_data` and the top-level code of `deprecated/mesh_read.py` |
| `RepoTests` | the assertions of `tests/test_visiblemesh_write.py` and of the translate, merge and order tests of `tests/test_visiblemesh_edit.py` |
| `ColPrograms` | `deprecated/mesh_merge.py`, as written and without its `raise` |
| `RotSketch` | `deprecated/rotate.py` |
| `OldTests` | the two translate tests of `deprecated/tests_colmesh_edit.py` and `deprecated/tests_vismesh_edit.py` |
| `OldJoin` | the program of `test_can_merge_statics_from_GPO`, `deprecated/tests_vismesh_edit.py:109-145` |
| `OldStages` | `_read_head` … `_read_materials`, `_write_header` … `_write_materials`, `deprecated/modmesh.py:797-1095`; the file is opened, appended to and closed by each writer. Simplified: before the nodes are read the lods of a geom are only counted |
| `Shared` | the editing methods of `visiblemesh.py:251-594` with `self.geoms` a list of references to geom objects; what is done with one geom is taken from `Edit`. `other` of `merge` is `self` or shares no object with it |
| `Nums` | `translate`, `rotate` of `visiblemesh.py:279-398` with integers: conversion to double, `OverflowError`, digit limit of `str` |

Specifications (no reference to the functions of the model, only to its data types):
`FloatSpec` (correct rounding), `Spec` (float words and values, well-formed meshes, integer ranges), `Layout` (the file format),
`EditSpec` (vertex layout, tilings, what a translation, merge, reorder means), `RotationSpec`,
`Exact` (real arithmetic), `ObjectSpec`, `EqualSpec`, `HistorySpec`, and for collision meshes `ColSpec`
(content and items of a file), `ColEditSpec`, `ColEqualSpec`. `OldSpec` says how a mesh of the package
looks in `deprecated/modmesh.py`, `OldEditSpec` and `OldTransformSpec` what its editing
methods should do, `OldScriptsSpec` what the scripts should do, `OldSaveSpec`
which mesh objects can be saved, `OldEqualSpec` what `==` should mean in `modmesh.py`, `OldModSpec`
what the parsers of `bf2.py` look for, `ReadmeSpec` what the programs of the README need and leave, `OldProgramsSpec` what the scripts leave
and show, `RepoTestsSpec` the floats the write tests compare,
`MergeOutcomeSpec` why a merge stops and the numbers it leaves, `KindSpec` kinds with the same fields,
`RotErrorSpec` cosines and sines within a given error, `DriftSpec` exact edits of a vector and the error of each edit,
`EditFailSpec` which vertices can be turned,
`ReorderFailSpec` where a reorder stops,
`TextSpec` how numbers and tuples are written, `NarrowSpec` correct rounding to binary32, `SizeSpec` the length of a file, `TurnSpec` an angle that does not turn,
`OldWingsSpec` commands that name wings or set lifts,
`OldShowSpec` reading bytes as Python writes them,
`ChainSpec` the materials at one place of several meshes, on top of each other,
`OldSmpSpec` records of three floats, `ByteSpec` which bytes of a file may differ,
`CutSpec` what a stopped save leaves, `WindowsSpec` names that differ on Windows, `ColTestsSpec` lods that can hold their contents twice, `ColFailSpec` a wrong collision type, `OldFailSpec` a first lod without material, `ColSizeSpec` the lengths of collision mesh files, `OldReadTestsSpec` what the tests that read say about a mesh, `OldNumsSpec` collision meshes with a vertex, `ColChainSpec` a lod followed by merged lods, `TwinSpec` meshes the same but for boxes, `OldSizeSpec` how long the files of the deprecated module are, `OldDriftSpec` edits one after the other in the deprecated module, `OldChainSpec` meshes of the deprecated module on top of each other, `OldByteSpec` which bytes of a file of the deprecated module may differ, `FreeSpec` which bytes of a file nothing else in it depends on and a mesh without the values stored in them, `ColFreeSpec` the same as `FreeSpec` for collision meshes, `ColByteSpec` which bytes of a collision mesh file hold vertices, materials of faces and signalling NaNs, `AlignSpec` the moves and saves that collision meshes and visible meshes have in common, `NetDirSpec` how paths on the network of Windows start, `MovedBoundsSpec` boxes moved and extended to the origin, `RigidSpec` the scalar product, `UndoSpec` the calls that undo an edit, `HandSpec` signed volumes, `BoundsDriftSpec` bounds up to an error, `CentreSpec` what is left of an offset, `RecentreSpec` rounds of centring, `QuarterSpec` quarter turns, `SpinSpec` several of them, `HalfSpec` half turns, `SnapSpec` vectors of binary32 without small coordinates, `CleanSpec` edits that stay within binary32, `CostSpec` the objects of a mesh, `RaiseSpec` the table of exceptions, `FrameSpec` what a geom is apart from arrays, ranges and boxes, `ColProgramsSpec` a lod beside its moved copy, `SaveBoundsSpec` bounds without the signs of zeros and coordinates that binary32 cannot tell from zero, `RepoBlindSpec` materials by their place and equal counts, `NumsSpec` the double that stands for a number, `RepoDetectSpec` meshes that agree but for upper bounds, `SharedSpec` meshes without an object in two places and orders naming no geom twice, `OldStagesSpec` the first parts of a mesh, `OldJoinSpec` a vertex turned by a map, `BoundsSpec` boxes around the
origin and vectors, said without loops. `OldHistorySpec` and `SessionSpec` define histories of calls, so they refer to the model.

`Sample`, `ColSample` hold the bytes of sample files of the repository and small example meshes.
`*Lemmas`, `FloatCodec`, `FloatValue`, `FloatArith` are helper lemmas. `Props/*` are the property theorems, one
section per property id, with satisfiability examples beside them.

## Modelling decisions

* Python `int` is `Int`. Python `float` is a type parameter `F` with classes `FCodec` (pack/unpack
  binary32) and `FArith` (`+ - *`, `/ 2`, `<`, `0.0`). Instances: `F64` (bit-exact IEEE binary64),
  `BitVec 32` (raw words, codec only) and `Real` (exact arithmetic). `sin`, `cos`, `radians` are an
  arbitrary parameter `Libm F`; only C27, C81, C82 and C130 fix them, to the real functions, and
  C126 and C127 assume a bound on their error.
* Exceptions are values (`Err`). A function that can raise after mutating returns the mutated state
  together with the error, so what a failing method leaves behind is part of the model.
* `struct` native formats: the parameter `Plat` gives the size of C `long` (4 or 8) and the byte order.
  Every codec theorem is for every `Plat`.
* A Python list or tuple is a `List`. The one place where the code stores a bare int instead of a tuple
  (`read_short` of one element) is an explicit constructor, `OneOrMany.one`.
* `logging.debug` calls are modelled only where evaluating their arguments can raise.
* Reading `n` elements is modelled element by element; the code reads one block. The two differ only in
  how much of a too short file is consumed before `struct.error`, which nobody can observe.
* Fields the constructors set to `None` and `load` always fills are not optional.
* The file system is a POSIX tree of directories and files, without symbolic links, permissions, or
  writers other than the program. `str.lower()` is modelled exactly as far as
  the result can be ASCII (ASCII letters and the Kelvin sign U+212A); the extensions compared are ASCII.
* Operands of `==` are assumed not to share a NaN float object (Python compares identity first); those of
  collision meshes, not to share any object; those of `modmesh.py`, not to share a rig.
* Collision meshes are parametrised by the type of their faces. Loading, saving and comparing use face
  objects as values. Merging appends the face objects of the other mesh to the target and changes them in
  place, so there the faces are addresses in a heap (`Nat → ColFace`), and any sharing is allowed. Merging
  a mesh with itself, where the loop appends to the list it runs over, is the separate `SelfMerge.step`.
* The regular expressions of `bf2.py` are modelled one by one as functions that try the positions from left to
  right, alternatives in their order, repetitions from the longest. Which characters are word characters is a
  parameter, digits are those of ASCII, files are given as decoded text.
* A vertex object of `modmesh.py` is the partial map from usage to floats that its attributes make.
  `sum((x, d))` is `(0 + x) + d`. Two entries of a geom list of `modmesh.py` being the same object is not
  modelled (for the package see `Shared`).

## How each property is proved

* C01-C13, C52, C58: for each reader/writer pair an exact inversion lemma (`Inverts`), composed through
  `bind`, loops and tables; loading as Python floats is loading raw words and unpacking each
  (`load_map`). The declarative layout (C58) is matched with the exporters by `Writes` lemmas, and with
  it the loader is characterised completely: a file loads to `r` iff it is the layout of `r`.
* C14-C21: string and file system model, case analysis; paths by induction over components.
* C22-C28: traversal over the flattened material list; the vertex array is a concatenation of vertex
  chunks; C25, C27 over the reals.
* C29-C33: loop invariant "the accumulated arrays are the tiles of the materials processed".
* C34-C44: simultaneous traversal of both material lists; associativity and distribution follow from the
  flat characterisation of a merge.
* C45-C49: fold invariants over vertices, using only irreflexivity and transitivity of `<`, and totality
  away from NaN.
* C50: an invariant (`Orderly`) preserved by every step, by induction over the reflexive transitive
  closure of the step relation; then export and reload by C02.
* C51: arithmetic of rounding (round to nearest even on rationals).
* C53-C57: reflection of the boolean comparisons, float `==` characterised by value.
* C59-C63: `Parses` lemmas give for each reader the exact set of inputs it accepts and the value it
  returns, composed through `bind` and loops; `Writes` lemmas as for C58.
* C64-C69: the merge of nested lists is a generic lemma (`mergeAll_ok`, `mergeAll_err`) applied at three
  levels, with the heap threaded through; bounds by fold invariants as for C45.
* C70: reflection of the comparisons.
* C71-C73, C75: `ofRat_rounded` (the model's rounding meets the specification `Rounded`), applied to the
  characterisation of translate in C22. C74: algebra over the reals, against Mathlib's cross product.
* C76, C77: translate and rotate of a tiled mesh are a map on the vertex array that works vertex by vertex
  (`Edits`, `Blockwise`), and such maps commute with cutting the array into materials. C78, C79: a
  reordered mesh is determined by its picked geoms and their data (`Picked.unique`). C81, C82: products of
  rotation matrices.
* C83: each reader of `modmesh.py` is a map over the reader of the package; the material loop, which carries
  a local variable from lod to lod, by induction over lods and geoms. C84: `oldSave_old` rewrites the writer
  into the exporter of the package, then C01's inversion. C85: as C18, C19.
* C86-C90: a vertex object `Holds` the floats of its vertex, which writing an attribute keeps up
  (`Holds.at`); `oldEdit_eq` is the loop over all vertices of all materials for any such edit; bounds by
  fold invariants.
* C91-C93: the merge loop in closed form (`mergeTo`, `retile`) by recursion over both trees, then bounds as
  in C89; C92 compares the closed forms of both modules.
* C94, C95: saving ignores what an edited mesh object has besides the file's fields (`oldSave_shows`), then
  as C84. C96: the arrays without the tiles of the geom are tiled by the remaining materials. C97, C98: the
  loop over the attribute table in closed form; case analysis.
* C99: as C86-C90, with an edit that sets three attributes; the packed table gives that they do not overlap.
* C100: the loops only append, in closed form; a tiled mesh is the concatenation of its materials' blocks.
* C101, C102: closed forms of the deletions; the table without an entry is packed again, and a vertex object
  is determined by its floats and the table.
* C103: a consistent object is what the deprecated loader makes of some package mesh, up to what no file holds;
  then as C84.
* C104: each method keeps the order, from its own theorem (C87, C91, C96, C97, C98, C99); then induction.
* C105: the objects are evaluated by the kernel; saving is C103 and C61.
* C106: the loop over the directory ends only if no name makes it raise; C14 for the kinds.
* C108: induction over the session; each export is C18 or C19, each edit C50, loading C02.
* C112: by C17 and C31. C113, C114, C115: one lemma (`save_reload`) composes C45, C48, C50, C18 and C02 for the
  export and the load after it; rounding to float is monotone (`RoundLemmas`), so that bounds which hold the
  positions still hold them in the file, and leaves what was loaded alone. The edits are C22, C29 and C35.
* C116: the loop that updates bounds yields a `Hull` (`fold_hull`), which is unique (`Hull.unique`); merged and
  reordered materials have the same positions (`posOf_merged`, `posOf_kept`). C117: C116 over the reals before and
  after C22, one axis at a time (`centre_axis`).
* C118: C101, C102 and C97 in sequence give a mesh with the edits (`boxEdits_ok`), which saves and loads as itself
  (`save_edited`). C119: each slice shown is the one `get_vertex` takes (`displayAttrs_ok`). C120: C94, C105
  and C85.
* C121: the floats of an updated mesh are `0.0` or floats of the mesh (`update_floats`), so they are binary32
  values and C02 gives back the object itself; `writeTests_self` goes through the assertions. C122:
  `translateTest_moved`; the number part is in `RepoTestsFloat` (a sum of at most 53 bits is exact). C123:
  `merge_counts` follows `merge` without hypotheses; `orderTest_passes` uses C29 and C30.
* C124: `mergeMats_outcome` runs the loop of `merge` with no hypothesis on where the materials point. C125:
  the fields are compared by C06; skinned and other files differ in length by `u2` (`exportMesh_skinned`).
* C126, C127: one rounding is off by half a unit (`Rounded.error`), one turn in a plane multiplies the error
  by little more than two (`turn_error`), three turns are composed (`rotMap_error`). The bound is not the
  best possible. C128: the edits commute with replacing floats (`changeGeomsOrder_map`, `merge_map`).
* C129: C65 for the two copies, lod by lod; C130: products of rotation matrices.
* C131: the nested loops of the tests as elementwise relations; adding a finite number makes no NaN.
* C132: rotate, translate and merge (C99, C91, C94) one after the other, with the bounds carried along.
* C133: opening a file again and appending is writing the rest (induction on the parts); the bytes of each
  part are those of the format, so each reader inverts its writer; a raising reader makes the later ones raise.
* C134: a loop over references without repetition is the loop over the values; with repetition it still is for
  a body that gives the same when repeated (updating bounds, C48); a merge after the order `[0, 0]` is the witness.
* C135: the assertions of the write tests reflect into field by field agreement (`writeTests_agrees`); doubles
  that compare equal are the same unless one is `-0.0`; then C01 and C02.
* C136: an integer is converted by the same rounding as every other operation (`ofRat_rounded`), so integers reduce
  to floats and C71; the failures go through the vertex loop as in C24.
* C137: the loops of assertions reflect into statements about each material (`mergeTest_iff`,
  `translateTest_tells`); the slice that the order test compares is as long as the geom has vertices, not floats.
* C138: rounding to binary32 keeps the order of numbers, so it commutes with least and greatest up to the
  sign of zero (`Hull.rnd32`); which numbers become `-0.0` is worked out from `packMag` (`rnd32_negZero`).
* C139: each vertex raises the same error or none, so the three nested loops raise it at the first vertex
  (`update_err_of`); the attribute loop is followed with `fold_known`, `fold_unknown`.
* C140: one edit takes a vector that is `δ` off to one that is `δ` plus its own error off, because exact
  moves and turns keep distances (`act_close`); the list by induction (`runs_close`).
* C141: every reader raises only `struct.error` (`OnlyStruct`), except the two lines that divide and index
  (`loadBody_error`); the rest of the file after a successful read is C04's.
* C142: for materials inside the vertex array every vertex has the full length, and whether an edit raises
  depends on the length only (`turn_misfit`), so all vertices raise or none (`edit_error`, `edit_ok`).
* C143: whether a material raises depends on the mesh only (`reorderFault`), so a geom raises exactly if it
  has a material; the loop over the ids is followed by induction (`reorderGeoms_says`).
* C144: each reader follows its writer (`Follows`): it gives back the value from all that is written for it,
  and runs out of bytes if the writer raised. This composes along the whole loader.
* C145: every loop keeps a projection of each geom it changes, in the model with references (`Shared`), so
  that the claim covers orders naming a geom twice; what is kept is a type of its own (`Geom.info`).
* C146: the exceptions of each function called, put together; `vertformat` is not 0 after loading (C141) and
  no call changes it (C145). That the table has no line too many is shown by eight small files.
* C147: `Text` models `str()` of headers, attributes, faces and meshes, and `with`; texts are split at their
  separators, which occur in no number and no name. Texts of floats (and so of `Vec3` and `bf2ydata`) are not
  modelled.
* C148: `Cost` is the loader again with a counter of the objects it makes (`loadTally`); dropping the counter
  gives `load` (C148_same). The counter is bounded by a potential of 2^31 per long still unread. Memory itself is
  not modelled: the model makes the objects a real machine has no room for, and so raises `struct.error`, not
  `MemoryError`. Bytes, strings, tuples and floats are not counted.
* C149: as C144 for collision meshes; the reader of each part runs out of bytes where its writer raised
  (`Follows.col`). Agreeing counts (`ColWF`) include that the collision type is one of the five known ones.
* C150: `sum_twice` is the proof that rounding the sum of two binary32 numbers first to a double and then to
  binary32 is rounding it once; `Rounded32` says what correct rounding is without a rounding function.
* C151: the length of the layout (C58), part by part; edits by induction on the history as in C50.
* C152: as C144 for the deprecated module, whose arrays are written at once or not at all; for its own loader
  from the package's, but that the former accepts one vertex float, which the numbers in front exclude.
* C153: `sin` and `cos` are any functions; of the angle it is assumed that they give one and a zero for it.
* C154: printing never fails; `\d` stands for ASCII digits, as in C111.
* C155: `repr` of bytes as in CPython; the spec is a reader of such literals, not a copy of the writer.
* C156: `ChainOverflows` leaves out the first mesh, whose indices are not moved; the loop ignores what `merge`
  returns, as a caller would.
* C157: the file is what is left to read; a read that raises has taken all of it.
* C159: `is` on integers is that of CPython up to 3.14, which has one object for each integer from -5 to 256.
  Whether two files were changed at the same time is a parameter.
* C160, C161: the place of the copy is taken to be one that can be written. Two vertex slices of one array
  compare as any reflexive comparison of their elements says (C160); a deep copy of floats is the same floats (C161).
* C162: that a stopped save leaves a first part of its bytes is an assumption about the operating system
  (appending writes to a file opened with `'wb'`); which part is arbitrary.
* C163: `ntpath.splitext` is `genericpath._splitext` with both separators, as in all versions of Python 3.
* C164: the names of the files are parameters; `copy.deepcopy` is not modelled, its result is any second mesh
  that looks the same and shares no face (`TwoCopies`). The sample meets the condition of the geoms test (an
  `example`); that it meets that of the merge test is not proved.
* C166: "everything up to the materials can be read" is `readNodesPart`, the model of `_read_nodes`; what it
  accepts is the subject of C83 and C133.
* C171: `Twins` pairs what the two modules hold after the same calls.  "In good order" is `Orderly` and `OldOrderly` of
  the loaded meshes, among others FLOAT3 positions, normals and tangents and a box for every material; the deprecated
  module keeps the last node of a lod only, so only that one is compared.
* C172: the length of a node counts `nodenum` matrices, since the deprecated save writes its one node that often.  The
  theorems on edits are about the length the counts give; with `C172_any_save` it is that of the file.
* C173: carries C140 and C153 over by C171, so the attributes are as there; `Twins` may contain merges before the edits.
* C174: a mesh may be merged into itself: each material is read before it is changed, so `oldMerge m m` is that call. `oldMerge` makes a new index tuple without a check, so an index too large shows only when saving.
* C175: as C158, by the package mesh that a mesh object shows (C103); `edit_vertex` needs no bounds, so its theorem asks for agreeing counts only.
* C176: free or not is marked item by item beside the layout of C58. A count that is negative, or a version that means the same, could be changed as well; these are not counted as free, and the mesh loaded is then another one in the sense of the claim.
* C177: as C176, beside the layout of C59. Collision types are not free because the values outside 0 to 4 do not load.
* C178: `ntpath.splitroot` and `ntpath.split` are taken from Python 3.12; `os.path.exists` and `os.makedirs` are parameters, of which only the behaviour on the empty path is assumed. No spec file: the claims are stated with the characters of the path.
* C182: edits without turns (`Props/Order`, and `Props/OldOrderAxis` for the deprecated module); "in order" compares the values of coordinates that are finite at the end, and
  equality is equality of bits, also for numbers that are not finite.
* C189, C190, C191: what the C library returns for 90 and 180 degrees is a hypothesis, not modelled; that IEEE libraries give the sine
  one and the cosine `6.123233995736766e-17` is a remark, used only in the witnesses (the sine of 180 degrees is twice that).
* C192, C193, C195: the accuracy of the C library is a hypothesis, as in C126; it is stated at the angles of the call only.
* C109, C110, C111: each pattern function is shown to find exactly what the specification describes; for the
  settings, other lines are skipped and each cell consumed, by induction.
* C107: field by field as C53, then lists one by one.

Negative properties (C09, C13, C17, C23, C28, C33, C39, C41, C55 and parts of others) say that the
code does not do what one would expect. They are proved as general statements of what happens, or with
a concrete witness evaluated by the kernel where the property is "this can happen".

## Disagreements between the code and what its users would expect

Found while modelling; each is a theorem.

* one-index meshes load but cannot be saved (C09); one-float vertex blocks do not load (C10);
* signalling NaN words, e.g. packed colours, change when saved (C12); files are not portable between
  platforms with different C `long` (C13), the sample files included;
* export to a bare file name always fails (C17); a failing export destroys the old file (C19);
* translate, rotate on meshes whose materials do not tile the vertex array in order move data between
  materials (C23); rotate drops the fourth float of FLOAT4 attributes (C28);
* bad orders corrupt (C33); failing merges are not rolled back (C39); `canMerge` may raise (C41);
* saving with default arguments zeroes the bounds of skinned and non-version-11 meshes (C47);
* material equality ignores `mmax` (C53), geom equality ignores everything but counts (C55);
* loading a collision mesh puts the material where saving does not look for it, so saving zeroes all
  materials (C62); merging collision lods moves corners by the wrong vertex count, right only when both
  lods have equally many vertices (C66), damages the other mesh (C67), and does not end on itself (C69);
* a merge may overflow in one direction only (C80); negated angles do not undo a rotation (C81);
* the deprecated loader raises if the first lod has no material (C83); saving with it overwrites all nodes
  of a lod with the last one (C84); its translate moves shared vertices twice, drops unused ones (C88),
  never shrinks bounds (C89), and raises after moving the vertices of a mesh without bounds (C90); its
  merge makes indices that cannot be saved (C92), is not rolled back and drops surplus materials (C93);
* also there: a reorder moves no data, so a translate after it mixes vertices up (C94); a failing copy makes
  the mesh unsavable (C95); `delete_geom_id` never works on a loaded mesh and corrupts with negative ids
  (C96); `edit_vertex` ignores bad vertex numbers, never works on a loaded mesh, edits unused entries (C97);
  its rotate raises on meshes without tangents (C99);
* the scripts: `copy_geom_table` spoils its second argument and never works on a loaded mesh (C100);
  `remove_vertice_id` and `replace_index_id` ignore their arguments (C101); `remove_attribute` corrupts a mesh
  when given its first attribute, and never works on a loaded mesh (C102);
* `Box()` does not set `isStaticMesh`, so two boxes do not merge; the second half of `ColBox()` is outside the
  bounds it states (C105); `box_new.py` uses an attribute `vmesh` of `Box()` that does not exist;
* the class `StdSample` is not defined, so `loadSamples=True` raises where there is a sample file, and for
  a bare file name (C106); lods with rigs are never equal, having no `__eq__` (C107);
* `bf2.py`: a missing comma hides `SimpleObject` and `Engine` objects (C110); a space after
  `ObjectTemplate` shifts type and name (C110); `Material.__hash__` raises;
* all three programs of the README end with an exception before they save anything (C112); the third is not
  even valid Python (it is modelled with the indentation that was meant);
* `box_modify.py` leaves the vertex counts of the materials as they were, and replaces vertex 24 of the sample
  by a vertex that is elsewhere (C118); `mesh_order_fix.py` destroys the file it saves to when there are
  more than 17 geoms (C120);
* the tests of the repository are not true of all meshes: C122 and C123 say when, with meshes on which they
  fail though the package is right. The tests name a directory `meshes`, the repository has `Meshes`, so on
  a file system that distinguishes case they find no sample; the skinned samples are not in the
  repository. `get_geom_vertices` in the order test compares `vnum` floats, not `vnum` vertices;
* a mesh that was saved and loaded before it is moved may be saved with other bytes than one that was not (C128);
* `mesh_merge.py` stops at a stray `raise`; without it, the bounds it saves are not those of the centred mesh (C129);
* `rotate_X` of `rotate.py` turns by the yaw about all three axes (C130);
* the old test of `VisMesh.translate` asserts a generator object, which is always true (C131);
* the old program that joins two pieces centres them by bounds that may stick out of the turned pieces
  (C132);
* saving a mesh, loading the file and saving it again with the default update of the bounds may write a
  different file: a bound of `-0.0` becomes `0.0` (C138);
* a mesh with a `FLOAT4` position followed by a normal that ends with the vertex cannot be rotated at all (C142);
* the message that `canMerge` logs for two different attributes shows the first one twice (C147_message_same);
* a file of 25 bytes makes the loader create 2147483647 objects before it raises (C148_bomb);
* merging two collision lods of more than 16384 vertices gives a mesh that cannot be saved, and the attempt
  destroys the file (C149_merge_too_large);
* moving a mesh by an offset that is not a binary32 number may store the wrong one of two neighbours
  (C150_needs_single);
* merging meshes so that an index exceeds 65535 succeeds in the deprecated module too, and saving the result
  destroys the file (C152_merge_too_large);
* rotating by zero degrees turns a vector with an infinite component into one with NaNs (C153_not_finite);
* `Jet.loadFromCon` sets `wings` to `None`, because `get_wings` returns nothing (C154_jet); it overlooks
  negative whole numbers (C154_negative_whole);
* `smp_sample.read` overruns its record where C `long` has 8 bytes (C157_second_record);
* the old header test fails for headers with other numbers than -5 to 256, and two old write tests assert
  nothing (C159_header, C159_assert_nothing);
* the old test of the vertex generator fails on tables with an unused entry (C160_serialize_unused), and the
  skipped test of `delete_geom_id` cannot pass on a loaded mesh (C161_delete);
* the old tests of reading accept a box whose corners are one point, and two of them fail on the sample of the repository, which
  has ten attributes and not nine; the tests of sample files pass on no file, because `StdSample` is not there (C168);
* merging a second or later collision mesh moves its faces by the number of its own vertices, so with equal counts they
  point at the vertices of the first merged mesh (C170);
* moving a mesh by its negated centre offset does not centre a lod that lies on one side of the origin (C117, in doubles C187);
* moving a mesh and moving it back may lose coordinates (C73); `Vec3.cross` is wrong (C74).

## Trusted base

* Lean's kernel (4.33.0) and the axioms `propext`, `Classical.choice`, `Quot.sound`; no others (see the
  table below). No `sorry`, `native_decide` or `bv_decide`.
* The reading of the Python source: no code of the repository is run. As tests, not proofs: the model of
  the double operations was compared with Python's on 60000 random operand pairs, and the kernel evaluates
  the loader and exporter on the sample file of the repository (example beside C01).
* The meaning of the specification files listed above.

Not modelled: memory exhaustion, disk errors (but see C162), permissions, concurrent modification of files, symbolic
links, Windows path syntax (except in C163 and C178), `logging` handlers, users assigning attributes from outside the methods,
Python implementations other than CPython, Pythons whose
`enum` forbids reaching one member from another (as documented for 3.11; `len(D3DDECLTYPE(..))` does so), the other files of
`/repo/deprecated` (`tests_vismesh_diff.py`, the skipped tests of `tests_vismesh_read.py` and `test_for_data` of `tests_colmesh_read.py`, which
look into an installed game, and the old tests without assertion), the text made by `print` except in C155, `copy_geom_table` on meshes that share objects or
whose `geomnum` is not the number of geoms, non-ASCII digits in the names of sample files and in
material settings, `int` of more than 4300 digits, the `print` calls of `modcolmesh.py`, texts of floats. In a reorder with
duplicate ids (C33) the same geom object occurs twice in the new list; `Edit` copies it. `Shared` keeps the
object, and C134 says that without a repeated id, and for the first call with one, this makes no difference.
Assigning to `mesh.geoms` by hand (sharing objects between meshes) is not modelled.

Checks of the model against the repository: `Props/ReadTests` has the assertions of the read tests of the
repository, old and new, about the files `evil_box.staticmesh` and `evil_box.collisionmesh`, evaluated in the
model by the kernel. The other sample files of the repository were loaded and written back by the model with
`#eval`: the same bytes, and the same bounds after an update.

## Wrong programs

`seeded/LOG.jsonl` has one line for each wrong program tried: a copy of the model with one definition
edited, rebuilt with every broken proof replaced so that the rest is still checked. `failed` lists the
theorems whose proof no longer goes through, directly or because a lemma it uses does not. That a theorem
failed does not show that its statement is false of the edited model (a proof may break for lack of an
adapted lemma); a theorem that survives is still true of it. So the log shows which claims do not notice
an edit; those were compared with their English statement, and the statement tightened where it should
have noticed. Some wrong programs were rebuilt with part of the modules only, and for about 130 edits made by
a script the list of failed theorems was cut off; a theorem that is not listed there was not necessarily
checked. Where no theorem is listed, no theorem of a property in the rebuilt modules broke.

## Axioms of each theorem

From `#print axioms` (names without the namespace `Bf2`).

`Classical.choice`, `Quot.sound`, `propext`: `C01_unmodified_export_identical`, `C02_reload_of_export`, `C03_export_fixpoint`, `C04_trailing_bytes_rejected`, `C05_truncation_rejected`, `C06_counts_agree`, `C06_loaded_wf`, `C07_integers_in_range`, `C08_kind_and_version_decide_fields`, `C09_never_saved`, `C09_one_index_never_exported`, `C10_one_float_rejected`, `C11_zero_vertformat_rejected`, `C11_negative_vertices_rejected`, `C11_negative_index_rejected`, `C11_negative_string_rejected`, `C12_signalling_nans_quieted`, `C12_example`, `C13_not_portable`, `C13_sample_not_portable`, `C14_kind_of_extension`, `C14_at_most_one`, `C14_only_extension`, `C14_flags_ignored`, `C14_loaded_kind`, `C15_other_flags_irrelevant`, `C15_unknown_as_static`, `C16_no_name`, `C17_bare_name`, `C18_one_file`, `C18_reload`, `C18_makes_directories`, `C18_existing_directory`, `C19_serialisation_raises`, `C19_update_raises`, `C19_other_files_kept`, `C20_own_name`, `C20_rewrites_source`, `C21_only_bounds_and_name`, `C22_translate_moves_positions_only`, `C23_translate_concatenates`, `C23_wrong_vertices`, `C23_dropped_vertices`, `C24_translate_atomic`, `C24_unknown_type`, `C24_no_position`, `C24_offset_too_long`, `C25_translations_compose`, `C25_translations_cancel`, `C26_rotate_vectors_only`, `C26_one_map_for_all`, `C26_rotate_atomic`, `C26_too_few_angles`, `C26_undefined_angle`, `C27_special_orthogonal`, `C27_rotation_matrix`, `C27_dot_products_kept`, `C27_zero_rotation`, `C28_float4_shrinks`, `C28_one_float4`, `C28_stride_mismatch`, `C29_reorder_keeps_geoms`, `C30_reorder_tiles`, `C30_lengths_kept`, `C31_wrong_length`, `C32_identity`, `C32_inverse`, `C33_out_of_range_raises`, `C33_out_of_range_corrupts`, `C33_duplicate_corrupts`, `C34_incompatible_untouched`, `C35_merge_concatenates`, `C35_merge_succeeds`, `C36_corners_preserved`, `C37_overflow_exactly`, `C37_indices_fit`, `C38_counts_and_tiling`, `C40_true_iff_compatible`, `C40_false_sound`, `C40_reflexive`, `C40_symmetric`, `C40_transitive`, `C41_alphamode_type_error`, `C41_other_direction_false`, `C41_attribute_value_error`, `C43_associative`, `C44_translate_distributes`, `C45_bounds_contain`, `C45_update_succeeds`, `C45_values_contained`, `C46_bounds_tight`, `C46_origin_inside`, `C46_smallest_box`, `C47_bounds_zeroed`, `C47_update_succeeds`, `C48_idempotent`, `C48_local`, `C49_center`, `C49_center_updated`, `C49_place_kept`, `C49_update_raises`, `C49_missing`, `C49_midpoint_real`, `C49_midpoint_overflows`, `C50_history_keeps_order`, `C50_export_reloads`, `C50_export_succeeds_iff`, `C51_word_survives`, `C51_rounding_idempotent`, `C51_read_exact`, `C51_write_nearest`, `C51_ties_to_even`, `C51_overflow_to_infinity`, `C51_sign_kept`, `C52_vertex_float_count`, `C53_material_equal`, `C53_differing_mmax_equal`, `C53_material_raises`, `C54_lod_equal`, `C54_lod_different`, `C54_old_and_new_raise`, `C54_needs_counts`, `C57_round_trip_equal`, `C57_loaded_round_trip_equal`, `C57_zeros_equal`, `C58_loads_iff_layout`, `C58_python_floats`, `C58_export_writes_layout`, `C58_layout_injective`, `C59_loads_iff_layout`, `C59_content_unique`, `C59_loaded_wf`, `C60_truncation_rejected`, `C60_unknown_coltype_rejected`, `C61_save_writes_layout`, `C61_reload_of_save`, `C62_load_save`, `C62_identical_iff`, `C64_translate_composes`, `C64_bounds_stale`, `C65_merge`, `C65_face_objects`, `C65_faces_seen`, `C65_counts_kept`, `C66_equal_counts`, `C66_unequal_counts`, `C67_other_broken`, `C67_second_merge_moves_again`, `C70_lod_equal`, `C70_geom_equal`, `C70_subgeom_equal`, `C70_lod_raises`, `C70_loaded_never_raises`, `C70_round_trip`, `C71_translate_rounds`, `C71_translate_exact`, `C72_minus_zero`, `C72_plus_zero`, `C73_back_if_exact`, `C73_back_differs`, `C74_cross_right_iff`, `C74_cross_laws_fail`, `C75_add_sub_rounded`, `C75_div_raises`, `C75_div_rounded`, `C75_div_scalar`, `C76_translate_reorder`, `C76_rotate_reorder`, `C77_translate_merge`, `C77_rotate_merge`, `C78_orders_compose`, `C79_reorder_merge`, `C80_same_corners`, `C81_rotations_compose`, `C81_one_axis`, `C81_undone`, `C81_full_turns`, `C81_negated_angles_do_not_undo`, `C82_rotate_after_translate`, `C83_loads_the_same`, `C83_first_lod_without_material`, `C83_loads_only`, `C84_save_unmodified`, `C84_identical_iff`, `C85_written`, `C86_vertices_roundtrip`, `C86_unchanged`, `C87_translate_tiled`, `C87_same_as_package`, `C87_minus_zero`, `C88_translate_general`, `C89_bounds_grow`, `C89_not_recomputed`, `C90_type_error_after_change`, `C90_loaded_bounds`, `C91_merge_concatenates`, `C92_same_as_package`, `C92_no_overflow_check`, `C93_refused`, `C93_index_error`, `C93_no_bounds`, `C93_surplus_left_out`, `C94_order_geoms`, `C94_save_reload`, `C94_short_order`, `C94_then_translate_shuffles`, `C95_copy_geom`, `C95_save_reload`, `C95_bad_id_unsavable`, `C95_bad_id_file_lost`, `C96_delete_geom`, `C96_raises_after_load`, `C96_refused`, `C96_index_tuple`, `C96_negative_id`, `C97_edit_vertex`, `C97_other_vertices`, `C97_past_end`, `C97_silent`, `C97_tuple`, `C97_unused_entry_edited`, `C98_rename_texture`, `C99_one_map`, `C99_too_few_angles`, `C99_missing_attribute`, `C99_undefined_angle`, `C99_same_as_package`, `C99_rotation_matrix`, `C99_package_needs_no_tangent`, `C100_copy_geoms`, `C100_second_spoilt`, `C100_raises_after_load`, `C100_zero`, `C101_removes_vertex_24`, `C101_materials_kept`, `C101_box`, `C102_remove_attribute`, `C102_first_attribute`, `C102_no_such_attribute`, `C102_raises_after_load`, `C102_unreadable_entry`, `C103_save_iff`, `C103_save_reload`, `C103_loaded`, `C104_history`, `C104_succeeds`, `C104_save_after`, `C104_translate_save_reload`, `C104_rotate_save_reload`, `C105_box_order`, `C105_box_save_reload`, `C105_box_triangles`, `C105_boxes_do_not_merge`, `C105_colbox_save_reload`, `C105_colbox_faces`, `C106_kind_of_extension`, `C106_bare_name`, `C106_samples_iff`, `C106_sample_file_raises`, `C106_bad_sample_name`, `C107_material_equal`, `C107_material_stricter`, `C107_lod_equal`, `C107_geom_equal`, `C107_loaded_twice`, `C107_rigs_never_equal`, `C108_meshes_stay_in_order`, `C108_other_files_kept`, `C108_last_export_loads`, `C108_entering_reads_nothing`, `C108_entering_unloaded`, `C109_mod_root`, `C110_root`, `C110_never_simple`, `C110_object_path`, `C110_children`, `C110_load_without_root`, `C111_settings`, `C112_reorder_as_written`, `C112_offset_as_written`, `C112_merge_as_written`, `C112_readme_order`, `C113_offset_program`, `C114_reorder_program`, `C115_merge_program`, `C116_bounds_exact`, `C116_lod_around_materials`, `C116_merge_bounds`, `C116_reorder_bounds`, `C117_centring`, `C118_box_modify`, `C118_prints`, `C118_face_torn`, `C119_display`, `C119_corner`, `C120_order_fix`, `C120_few_geoms`, `C120_many_geoms`, `C120_box_new`, `C121_reload_exact`, `C121_write_tests`, `C122_translate_test`, `C122_test_passes`, `C122_small_z_fails`, `C123_merge_test`, `C123_same_file`, `C123_order_test`, `C123_two_materials_fail`, `C124_raises`, `C124_succeeds_iff`, `C124_numbers`, `C124_one_index`, `C125_other_kind`, `C125_other_extension`, `C126_rotate_accurate`, `C126_rotate_length`, `C127_stored_error`, `C127_rotate_saved`, `C128_reorder`, `C128_merge`, `C128_translate_differs`, `C129_as_written`, `C129_meant`, `C129_meant_no_lod`, `C129_counts`, `C129_meant_saved`, `C129_centred`, `C130_raises`, `C130_exact`, `C130_right_iff`, `C130_the_run`, `C131_col_passes_iff`, `C131_col_translate`, `C131_vis_asserts_nothing`, `C132_joined`, `C132_centred`, `C132_not_centred`, `C133_load`, `C133_read_back`, `C133_loaded`, `C134_loaded`, `C134_call`, `C134_stays_unshared`, `C134_history`, `C134_valid`, `C134_gentle`, `C134_merge_loses`, `C135_tests_show`, `C135_same_but_mmax`, `C135_file_determined`, `C135_blind_to_mmax`, `C136_translate`, `C136_exact`, `C136_translate_rounds`, `C136_rounded_twice`, `C136_overflow`, `C136_too_long`, `C136_rotate`, `C136_rotate_short`, `C136_atomic`, `C137_merge_missing`, `C137_merge_blind`, `C137_order_blind`, `C137_order_misses`, `C137_translate_tells`, `C137_translate_blind`, `C138_second_update`, `C138_saved_box`, `C138_same_bytes_iff`, `C138_third`, `C138_loaded`, `C138_unbounded`, `C138_may_differ`, `C139_no_vertices`, `C139_unknown_attribute`, `C139_no_position`, `C139_short_position`, `C139_unbounded`, `C139_ok_iff`, `C140_drift`, `C140_normals`, `C140_there_and_back`, `C140_turned_back`, `C141_zero_division`, `C141_type`, `C141_attribute`, `C141_struct`, `C141_append`, `C141_construct`, `C142_translate_errors`, `C142_no_floats`, `C142_translate_zero_format`, `C142_translate_ok_iff`, `C142_rotate_errors`, `C142_rotate_ok_iff`, `C142_rotate_first_bad`, `C143_wrong_number`, `C143_unknown_type`, `C143_raises_iff`, `C143_ok_iff`, `C143_left_behind`, `C143_geoms_listed`, `C144_errors`, `C144_raises_iff`, `C144_not_loadable`, `C144_loads_iff`, `C144_after_history`, `C144_needs_counts`, `C145_kept`, `C145_in_place`, `C145_amounts`, `C145_places`, `C145_boxes`, `C145_vertices`, `C145_names`, `C146_session`, `C146_attained`, `C147_head`, `C147_head_eq`, `C147_attr_raises`, `C147_attr`, `C147_attr_eq`, `C147_old_attr`, `C147_face`, `C147_face_eq`, `C147_message`, `C147_message_same`, `C147_mesh`, `C147_with`, `C148_same`, `C148_loaded`, `C148_limit`, `C148_cut`, `C148_bomb`, `C149_not_loadable`, `C149_raises_iff`, `C149_loads_iff`, `C149_merge_too_large`, `C149_needs_counts`, `C150_single_iff`, `C150_loaded`, `C150_translate`, `C150_file`, `C150_needs_single`, `C151_loaded`, `C151_saved`, `C151_kept`, `C151_merged`, `C151_edited`, `C151_not_shorter`, `C152_errors`, `C152_raises_iff`, `C152_not_loadable`, `C152_loads_iff`, `C152_after_history`, `C152_merge_too_large`, `C152_needs_counts`, `C153_kept`, `C153_unchanged`, `C153_export`, `C153_not_finite`, `C153_sign_lost`, `C154_printed`, `C154_raises`, `C154_own_wings_ignored`, `C154_negative_whole`, `C154_jet`, `C154_jet_fails`, `C155_shows`, `C155_missing`, `C155_faithful`, `C155_same_lines`, `C155_program`, `C156_succeeds_exactly`, `C156_stacked`, `C156_tiled`, `C156_corners`, `C156_copies`, `C156_copies_last`, `C156_skips`, `C158_translate`, `C158_translate_bounds`, `C158_translate_file`, `C158_rotate`, `C158_bounds`, `C159_header`, `C159_geom_table`, `C159_nodes`, `C159_others`, `C159_assert_nothing`, `C159_identical`, `C160_serialize`, `C160_serialize_unused`, `C160_all`, `C160_materials`, `C160_materials_only_if`, `C160_box`, `C161_order`, `C161_copy`, `C161_delete`, `C161_other_kinds`, `C162_part`, `C162_old_append`, `C162_old_part`, `C162_export`, `C162_export_construct`, `C162_old_save`, `C162_old_save_struct`, `C162_col_save`, `C162_col_construct`, `C163_slashed`, `C163_either_separator`, `C163_no_backslash`, `C163_hidden`, `C163_differ_iff`, `C164_unloaded`, `C164_header`, `C164_geoms`, `C164_mock`, `C164_merge`, `C165_value`, `C165_struct`, `C165_short`, `C165_construct`, `C166_zero_division`, `C166_unbound`, `C166_struct`, `C166_package`, `C166_append`, `C166_path`, `C167_saved`, `C167_loaded`, `C167_resaved`, `C167_merged_file`, `C168_passes`, `C168_raises`, `C168_unloaded`, `C168_box`, `C168_blind`, `C168_load`, `C168_samples`, `C168_collision`, `C169_translate`, `C169_first_three`, `C169_rounds`, `C169_overflow`, `C169_rotate`, `C169_rotate_short`, `C169_collision`, `C170_chain`, `C170_face_objects`, `C170_twice`, `C170_raises`, `C170_counts`, `C171_same`, `C171_no_errors`, `C171_saves`, `C171_files`, `C172_saved`, `C172_any_save`, `C172_loaded`, `C172_translate`, `C172_rotate`, `C172_merge`, `C172_edit_vertex`, `C172_rename`, `C172_copy`, `C172_order`, `C172_delete`, `C173_drift`, `C173_normals`, `C173_saved`, `C173_no_turn`, `C174_succeeds`, `C174_stacked`, `C174_corners`, `C174_save_iff`, `C174_stops`, `C174_raises`, `C174_size`, `C175_translate`, `C175_rotate`, `C175_bounds`, `C175_edit_vertex`, `C175_rename`, `C176_unnoticed_iff`, `C176_items`, `C176_vertices`, `C176_deprecated`, `C177_unnoticed_iff`, `C177_items`, `C178_bare_iff`, `C178_under`, `C178_drive`, `C178_network`, `C178_as_posix`, `C178_differ`, `C178_export`, `C179_moved`, `C179_moved_count`, `C179_resaved`, `C179_loaded_moved`, `C179_lost_count`, `C180_rounds`, `C180_file`, `C180_drift`, `C180_aligned`, `C181_moved`, `C181_untold`, `C182_deprecated`, `C182_order`, `C182_col`, `C182_gap_visible`, `C182_gap`, `C182_collapse`, `C183_distance`, `C183_angle`, `C183_deprecated`, `C183_col`, `C184_undone`, `C184_deprecated`, `C184_col`, `C185_side`, `C185_volume`, `C185_deprecated`, `C186_bounds`, `C186_radius`, `C186_undone`, `C187_centring`, `C187_around`, `C187_aside`, `C188_rounds`, `C188_succeeds`, `C188_flat`, `C189_yaw`, `C189_pitch`, `C189_roll`, `C189_zero_spoiled`, `C190_spun`, `C190_four`, `C190_deprecated`, `C190_quarter`, `C190_not_level`, `C191_yaw`, `C191_pitch`, `C191_roll`, `C191_twice`, `C191_two_quarters`, `C192_exact`, `C192_right_angles`, `C193_exact`, `C193_there_and_back`, `C194_exact`, `C194_there_and_back`, `C195_moves`, `C195_saved`.

`Quot.sound`, `propext`: `C45_every_vertex`, `C63_bare_name`, `C63_one_file`, `C64_translate`, `C68_index_error`, `C69_self_merge_never_ends`, `C85_bare_name`, `C94_bad_id`, `C95_bad_id`, `C98_refused`, `C116_box_unique`, `C129_faces_follow`, `C133_save`, `C133_prefix`, `C137_merge_tells`, `C142_fits_iff`, `C149_errors`, `C157_sample`, `C157_face`, `C157_second_record`, `C162_col_append`, `C167_translate`, `C167_merge`, `C170_equal_counts`.

`propext`: `C34_refused_silently`, `C39_not_rolled_back`, `C42_self_merge`, `C53_ignores_mmax`, `C55_geom_equal`, `C55_geom_equal_wf`, `C56_head_equal`, `C56_vertattrib_equal`, `C57_nan_never_equal`, `C59_construct`, `C63_failed_save_truncates`, `C80_one_direction_overflows`, `C101_replaces_24_by_14`, `C107_vertattrib_equal`, `C130_yaw_only`, `C156_raises`.

No axioms: `C170_stops`.
