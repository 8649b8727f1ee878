{"id": "C01", "title": "Unmodified export is byte-identical", "statement": "Loading a mesh file and exporting it again with update_bounds=False, without edits, writes exactly the bytes that were read, provided the file does not hold exactly one index and holds no signalling-NaN float word.", "quantifier": "every byte string that loads, every mesh kind, every version, every platform word size and byte order", "why_tests_cant": "Depends on every combination of counts, strings, versions and kinds; tests use one box file", "anchors": ["bf2mesh/visiblemesh.py:VisibleMesh.__load", "bf2mesh/visiblemesh.py:VisibleMesh.__export", "bf2mesh/io.py"]}
{"id": "C02", "title": "Reload of an export restores the mesh", "statement": "For every in-memory mesh whose counts agree with its arrays, if export(update_bounds=False) succeeds then loading the written file under the same kind yields the same mesh with every float rounded once to binary32.", "quantifier": "every consistent mesh value of any size with arbitrary double values", "why_tests_cant": "Universally quantified over mesh shapes and all doubles", "anchors": ["bf2mesh/visiblemesh.py:VisibleMesh.export", "bf2mesh/visiblemesh.py:VisibleMesh.__load"]}
{"id": "C03", "title": "Export is a fixpoint after one save", "statement": "Export, reload, export again (no edits, update_bounds=False) writes the same bytes the second time: float rounding loss happens at most once.", "quantifier": "every consistent mesh with arbitrary double values", "why_tests_cant": "All doubles and all meshes", "anchors": ["bf2mesh/visiblemesh.py:VisibleMesh.export", "bf2mesh/io.py:write_float", "bf2mesh/io.py:read_float"]}
{"id": "C04", "title": "Trailing bytes are rejected", "statement": "If a file loads, then the same file followed by any non-empty suffix does not load (the constructor raises AttributeError).", "quantifier": "every loadable file and every non-empty suffix", "why_tests_cant": "Infinite set of files and suffixes", "anchors": ["bf2mesh/visiblemesh.py:VisibleMesh.__load"]}
{"id": "C05", "title": "Truncated files are rejected", "statement": "If a file loads, no proper prefix of it loads: every truncation makes the constructor raise.", "quantifier": "every loadable file and every cut point", "why_tests_cant": "Every cut point of every file", "anchors": ["bf2mesh/visiblemesh.py:VisibleMesh.__load", "bf2mesh/io.py"]}
{"id": "C06", "title": "Loaded counts agree with loaded arrays", "statement": "After a successful load the geom, lod, material, attribute, map, rig, bone, node, vertex and index collections have exactly the length their count fields announce (an announced negative count means an empty collection).", "quantifier": "every loadable file", "why_tests_cant": "Every file", "anchors": ["bf2mesh/visiblemesh.py:VisibleMesh.__load", "bf2mesh/visiblemesh.py:_bf2lod.load_nodes_rigs", "bf2mesh/visiblemesh.py:_bf2mat.load"]}
{"id": "C07", "title": "Loaded integers are in range", "statement": "After a successful load every index and attribute field lies in 0..65535, u1 in -128..127, and every long field lies in the signed range of the platform C long.", "quantifier": "every loadable file", "why_tests_cant": "Every file", "anchors": ["bf2mesh/io.py:read_short", "bf2mesh/io.py:read_byte", "bf2mesh/io.py:read_long"]}
{"id": "C08", "title": "Kind and version decide which fields exist", "statement": "After a load, alphamode is set iff the mesh is not skinned, mmin/mmax are set iff the mesh is not skinned and version is 11, pivot is set iff version <= 6, rigs appear only on skinned meshes, node matrices only on meshes neither skinned nor bundled.", "quantifier": "every loadable file and kind", "why_tests_cant": "Every file", "anchors": ["bf2mesh/visiblemesh.py:_bf2lod.load_nodes_rigs", "bf2mesh/visiblemesh.py:_bf2mat.load"]}
{"id": "C09", "title": "A one-index mesh loads but can never be exported", "statement": "A file announcing exactly one index loads successfully with a bare integer as its index array, and every export of it raises TypeError (round-trip is false there).", "quantifier": "every loadable file with indexnum = 1", "why_tests_cant": "The sample files have many indices; the defect is at a boundary", "anchors": ["bf2mesh/io.py:read_short", "bf2mesh/visiblemesh.py:VisibleMesh.__export"]}
{"id": "C10", "title": "A one-float vertex block never loads", "statement": "A file whose vertex block holds exactly one float value is rejected (TypeError), whatever else it contains.", "quantifier": "every file whose header announces one vertex float", "why_tests_cant": "Boundary not in samples", "anchors": ["bf2mesh/io.py:read_float", "bf2mesh/visiblemesh.py:VisibleMesh.__read_vertices"]}
{"id": "C11", "title": "Impossible counts are rejected", "statement": "A file with vertformat 0, a negative vertex-float count, a negative index count or a negative string length never loads.", "quantifier": "every such file", "why_tests_cant": "Every malformed file", "anchors": ["bf2mesh/visiblemesh.py:VisibleMesh.__read_vertices", "bf2mesh/io.py:read_string"]}
{"id": "C12", "title": "Signalling-NaN words are altered by load/export", "statement": "A loaded file containing a signalling-NaN 32-bit word in a float position (for example a packed D3DCOLOR vertex value) is exported with the quiet bit of exactly these words set and every other byte unchanged.", "quantifier": "every loadable file (without exactly one index)", "why_tests_cant": "Needs all 2^32 words in all positions", "anchors": ["bf2mesh/io.py:read_float", "bf2mesh/io.py:write_float", "bf2mesh/bf2types.py:D3DDECLTYPE"]}
{"id": "C13", "title": "Files are not portable across C long sizes", "statement": "A mesh exported where C long is 4 bytes need not load where C long is 8 bytes (and conversely), although each platform round-trips its own files.", "quantifier": "existential (counterexample) plus both platform parameters in every codec theorem", "why_tests_cant": "Tests run on one platform only", "anchors": ["bf2mesh/io.py:read_long", "bf2mesh/io.py:write_long"]}
{"id": "C14", "title": "Mesh kind follows the file extension", "statement": "The kind flags depend only on the extension of the file name, compared case-insensitively; at most one flag is set; the keyword flags are ignored whenever a file name is given.", "quantifier": "every file name and every combination of keyword flags", "why_tests_cant": "All strings", "anchors": ["bf2mesh/mesh.py:BF2Mesh.__init__", "bf2mesh/BundledMesh.py:BundledMesh"]}
{"id": "C15", "title": "Unknown extensions use the static layout", "statement": "A file whose name has an unrecognised extension is parsed exactly as if it were a .staticmesh.", "quantifier": "every byte string and file name", "why_tests_cant": "All names and files", "anchors": ["bf2mesh/mesh.py:BF2Mesh.__init__", "bf2mesh/visiblemesh.py:VisibleMesh.__load"]}
{"id": "C16", "title": "A mesh cannot be built without a file name", "statement": "VisibleMesh(...) without a (non-empty) file name always raises AttributeError, whatever flags are passed.", "quantifier": "every combination of flags", "why_tests_cant": "Constructor never tested this way", "anchors": ["bf2mesh/mesh.py:BF2Mesh.__init__", "bf2mesh/visiblemesh.py:VisibleMesh.__enter__"]}
{"id": "C17", "title": "Export to a bare file name always fails", "statement": "export(name) with a name that has no directory part raises FileNotFoundError before anything is written and leaves the mesh unchanged (the README example cannot work).", "quantifier": "every mesh, every file system, every name without a slash", "why_tests_cant": "Tests always export into directories", "anchors": ["bf2mesh/visiblemesh.py:VisibleMesh.export"]}
{"id": "C18", "title": "Successful export writes one file", "statement": "A successful export leaves exactly the serialised mesh at the target path, creates the missing parent directories, touches no other file, and sets the mesh filename to the target.", "quantifier": "every mesh, file system and target path", "why_tests_cant": "All file systems", "anchors": ["bf2mesh/visiblemesh.py:VisibleMesh.export"]}
{"id": "C19", "title": "A failing export destroys the old file", "statement": "When serialisation raises, the target file is left holding exactly the bytes written before the exception (its old content is gone), no other file changes and the mesh filename is unchanged; when update_boundaries raises instead, no file is touched.", "quantifier": "every mesh whose export raises, every file system", "why_tests_cant": "Every failure point", "anchors": ["bf2mesh/visiblemesh.py:VisibleMesh.export"]}
{"id": "C20", "title": "Export without a name rewrites the source path", "statement": "export() with no name behaves as export(self.filename).", "quantifier": "every mesh and file system", "why_tests_cant": "All states", "anchors": ["bf2mesh/visiblemesh.py:VisibleMesh.export"]}
{"id": "C21", "title": "Export changes at most bounds and filename", "statement": "A successful export changes nothing in the in-memory mesh but its filename and, with update_bounds=True, lod and material bounds.", "quantifier": "every mesh", "why_tests_cant": "All meshes", "anchors": ["bf2mesh/visiblemesh.py:VisibleMesh.export", "bf2mesh/visiblemesh.py:VisibleMesh.update_boundaries"]}
{"id": "C22", "title": "Translate shifts positions only", "statement": "On a mesh whose materials tile the vertex array in order, translate(offset) adds the offset componentwise to the POSITION floats of every vertex, leaves every other vertex float, the number of vertices and all other mesh data unchanged.", "quantifier": "every such mesh, every float offset", "why_tests_cant": "All meshes and floats", "anchors": ["bf2mesh/visiblemesh.py:VisibleMesh.translate"]}
{"id": "C23", "title": "Translate misplaces data on other layouts", "statement": "If materials do not tile the vertex array in order, translate rewrites the array in material order without updating vstart: it may drop unreferenced vertices and give a material another material's vertices.", "quantifier": "existential counterexample plus an exact characterisation for every layout", "why_tests_cant": "Samples all tile in order", "anchors": ["bf2mesh/visiblemesh.py:VisibleMesh.translate"]}
{"id": "C24", "title": "Translate is all or nothing", "statement": "When translate raises (no position attribute, unknown type, bad offset), the mesh is unchanged.", "quantifier": "every mesh and offset", "why_tests_cant": "All failure points", "anchors": ["bf2mesh/visiblemesh.py:VisibleMesh.translate"]}
{"id": "C25", "title": "Translations compose and cancel (exact arithmetic)", "statement": "Translating by a then b equals translating by a+b, and translating by a then -a restores the mesh, in exact real arithmetic.", "quantifier": "every tiled mesh, all offsets", "why_tests_cant": "All meshes; holds in exact arithmetic only", "anchors": ["bf2mesh/visiblemesh.py:VisibleMesh.translate"]}
{"id": "C26", "title": "Rotate changes only position, normal and tangent", "statement": "On a tiled mesh with non-overlapping FLOAT3 attributes, rotate changes only the POSITION, NORMAL and TANGENT floats; every other vertex float, the layout and all other mesh data are unchanged. A call that raises leaves the mesh as it was; it raises ValueError for an angle without sine or cosine (an infinite one) when there is a vertex and a vector attribute, and an error for fewer than three angles.", "quantifier": "every such mesh and rotation", "why_tests_cant": "All meshes", "anchors": ["bf2mesh/visiblemesh.py:VisibleMesh.rotate"]}
{"id": "C27", "title": "Rotate is a rigid rotation (exact arithmetic)", "statement": "In exact real arithmetic the map applied to each vector preserves dot products (hence lengths and angles) and orientation, and rotating by zero angles is the identity.", "quantifier": "all angles and vectors", "why_tests_cant": "Real-number statement", "anchors": ["bf2mesh/visiblemesh.py:VisibleMesh.rotate"]}
{"id": "C28", "title": "Rotate shrinks FLOAT4 data", "statement": "If a position, normal or tangent attribute is declared FLOAT4, rotate replaces four floats by three, so every vertex loses a float and the vertex array no longer matches the stride.", "quantifier": "every tiled mesh with such an attribute", "why_tests_cant": "Type not in samples", "anchors": ["bf2mesh/visiblemesh.py:VisibleMesh.rotate"]}
{"id": "C29", "title": "Reordering keeps each geom intact", "statement": "change_geoms_order(order) with a permutation yields exactly the old geoms in the new order, each material keeping the same vertex data, index data, counts and textures; only vstart/istart change.", "quantifier": "every mesh with in-range materials, every permutation", "why_tests_cant": "All meshes and permutations", "anchors": ["bf2mesh/visiblemesh.py:VisibleMesh.change_geoms_order"]}
{"id": "C30", "title": "Reordering re-tiles the arrays", "statement": "After a permuting reorder the materials tile the new vertex and index arrays in order, and when they tiled the old arrays the array lengths are unchanged.", "quantifier": "every mesh, every permutation", "why_tests_cant": "All meshes", "anchors": ["bf2mesh/visiblemesh.py:VisibleMesh.change_geoms_order"]}
{"id": "C31", "title": "Wrong-length orders are rejected untouched", "statement": "change_geoms_order with a list of another length raises AttributeError and changes nothing.", "quantifier": "every mesh and list", "why_tests_cant": "All lists", "anchors": ["bf2mesh/visiblemesh.py:VisibleMesh.change_geoms_order"]}
{"id": "C32", "title": "Identity and inverse orders", "statement": "On a tiled mesh the identity order changes nothing, and applying an order followed by its inverse restores the mesh.", "quantifier": "every tiled mesh and permutation", "why_tests_cant": "All permutations", "anchors": ["bf2mesh/visiblemesh.py:VisibleMesh.change_geoms_order"]}
{"id": "C33", "title": "Bad orders corrupt", "statement": "An order with an out-of-range id raises IndexError but may leave materials already re-pointed; an order with a duplicate id succeeds but drops a geom and may re-read wrong vertex data.", "quantifier": "existential counterexamples", "why_tests_cant": "Failure atomicity over all prefixes", "anchors": ["bf2mesh/visiblemesh.py:VisibleMesh.change_geoms_order"]}
{"id": "C34", "title": "Incompatible merge is a silent no-op", "statement": "If canMerge(other) is False, merge(other) raises nothing, returns the NotImplementedError class, and changes neither mesh.", "quantifier": "every pair of meshes", "why_tests_cant": "All pairs", "anchors": ["bf2mesh/visiblemesh.py:VisibleMesh.merge", "bf2mesh/visiblemesh.py:VisibleMesh.canMerge"]}
{"id": "C35", "title": "Merge concatenates material data", "statement": "A successful merge gives every material its old vertex data followed by the other mesh's, and its old indices followed by the other's shifted by the old vertex count; counts add up; nothing else changes.", "quantifier": "every compatible pair with in-range materials", "why_tests_cant": "All pairs of meshes", "anchors": ["bf2mesh/visiblemesh.py:VisibleMesh.merge"]}
{"id": "C36", "title": "Merge preserves every triangle corner", "statement": "After a merge, dereferencing a material's indices yields exactly the vertices the old indices of self, then of other, dereferenced to.", "quantifier": "every compatible pair whose indices are in range", "why_tests_cant": "All pairs", "anchors": ["bf2mesh/visiblemesh.py:VisibleMesh.merge"]}
{"id": "C37", "title": "Merge never wraps an index", "statement": "merge raises OverflowError exactly when some corrected index exceeds 65535 (given readable index data); after success every index of a mesh with 16-bit inputs is at most 65535.", "quantifier": "every compatible pair", "why_tests_cant": "Boundary over all index values", "anchors": ["bf2mesh/visiblemesh.py:VisibleMesh.merge"]}
{"id": "C38", "title": "Merge leaves consistent counts and tiling", "statement": "After a successful merge vertnum and indexnum match the new arrays and materials tile them in order.", "quantifier": "every compatible pair with in-range materials", "why_tests_cant": "All pairs", "anchors": ["bf2mesh/visiblemesh.py:VisibleMesh.merge"]}
{"id": "C39", "title": "A failing merge is not rolled back", "statement": "When merge raises OverflowError at a later material, earlier materials keep updated counts while the arrays are old.", "quantifier": "existential counterexample", "why_tests_cant": "Failure atomicity", "anchors": ["bf2mesh/visiblemesh.py:VisibleMesh.merge"]}
{"id": "C40", "title": "canMerge is a compatibility relation", "statement": "canMerge never changes anything, is reflexive, symmetric and transitive as far as it returns; it returns True exactly when geom/lod/material structure, shader, technique, maps, alphamode and vertex attributes agree.", "quantifier": "all pairs and triples of meshes", "why_tests_cant": "All pairs", "anchors": ["bf2mesh/visiblemesh.py:VisibleMesh.canMerge"]}
{"id": "C41", "title": "canMerge may raise instead of answering False", "statement": "canMerge raises TypeError when a material without alphamode meets one with it, and ValueError when differing attributes have an unknown type or usage.", "quantifier": "existential / all such pairs", "why_tests_cant": "Error paths", "anchors": ["bf2mesh/visiblemesh.py:VisibleMesh.canMerge", "bf2mesh/visiblemesh.py:_bf2vertattrib.__str__"]}
{"id": "C42", "title": "Self-merge equals merging a copy", "statement": "mesh.merge(mesh) has the same result as merging with an independent copy of itself.", "quantifier": "every mesh", "why_tests_cant": "Aliasing over all meshes", "anchors": ["bf2mesh/visiblemesh.py:VisibleMesh.merge"]}
{"id": "C43", "title": "Merge is associative", "statement": "On tiled meshes merge(merge(a,b),c) and merge(a,merge(b,c)) give the same mesh whenever all succeed.", "quantifier": "all compatible triples", "why_tests_cant": "All triples", "anchors": ["bf2mesh/visiblemesh.py:VisibleMesh.merge"]}
{"id": "C44", "title": "Translate distributes over merge", "statement": "Translating two compatible tiled meshes by the same offset and merging equals merging and translating.", "quantifier": "all compatible pairs and offsets", "why_tests_cant": "All pairs", "anchors": ["bf2mesh/visiblemesh.py:VisibleMesh.merge", "bf2mesh/visiblemesh.py:VisibleMesh.translate"]}
{"id": "C45", "title": "Updated bounds contain every vertex", "statement": "After update_boundaries on a non-skinned version-11 mesh no vertex position component of a material is below mmin or above mmax, nor outside the bounds of its lod.", "quantifier": "every such mesh", "why_tests_cant": "All meshes and floats", "anchors": ["bf2mesh/visiblemesh.py:VisibleMesh.update_boundaries"]}
{"id": "C46", "title": "Updated bounds are tight with the origin", "statement": "Each updated bound component is 0.0 or a component of an actual vertex position of that material or lod; so the box is the smallest one containing the vertices and the origin.", "quantifier": "every such mesh", "why_tests_cant": "All meshes", "anchors": ["bf2mesh/visiblemesh.py:VisibleMesh.update_boundaries"]}
{"id": "C47", "title": "Bounds of other meshes are zeroed", "statement": "On a skinned mesh or a version other than 11, update_boundaries (and so the default export) sets every lod bound to (0,0,0), whatever the vertices.", "quantifier": "every such mesh", "why_tests_cant": "All meshes", "anchors": ["bf2mesh/visiblemesh.py:VisibleMesh.update_boundaries"]}
{"id": "C48", "title": "Updating bounds is idempotent and local", "statement": "update_boundaries changes only lod and material bounds, and applying it twice equals applying it once.", "quantifier": "every mesh", "why_tests_cant": "All meshes", "anchors": ["bf2mesh/visiblemesh.py:VisibleMesh.update_boundaries"]}
{"id": "C49", "title": "Lod centre is the midpoint", "statement": "get_lod_center_offset returns the componentwise midpoint of the (updated) lod bounds, and raises IndexError for missing ids.", "quantifier": "every mesh and ids", "why_tests_cant": "All meshes", "anchors": ["bf2mesh/visiblemesh.py:VisibleMesh.get_lod_center_offset"]}
{"id": "C50", "title": "Any edit history keeps a mesh saveable", "statement": "Starting from a mesh in good order (counts agree with collections, materials tile both arrays, vertices of the declared stride, positions, normals and tangents of type FLOAT3, 16-bit indices, at most 2^53 floats), after any sequence of translate, rotate, bounds updates and lod centre queries (raising or not), reorders by a permutation, merges that return (with any mesh in good order or with itself) and save-and-reload steps, the mesh is in good order, of the same kind, header and vertex format; export then raises only if some number does not fit its field, and a successful export reloads to the same mesh with floats rounded once.", "quantifier": "every finite sequence of operations with any arguments", "why_tests_cant": "Unbounded histories", "anchors": ["bf2mesh/visiblemesh.py:VisibleMesh"]}
{"id": "C51", "title": "Binary32 storage is exact and rounding is idempotent", "statement": "Every non-signalling 32-bit float word survives reading into a double and writing back; writing a double twice through binary32 equals writing it once; a written double is the nearest binary32 value, ties going to the even one; out-of-range doubles become infinities, not errors.", "quantifier": "all 2^32 words and all 2^64 doubles", "why_tests_cant": "Whole float domain", "anchors": ["bf2mesh/io.py:read_float", "bf2mesh/io.py:write_float"]}
{"id": "C52", "title": "Vertex float count is exact", "statement": "The number of floats read for the vertex block, int(vertstride / vertformat * vertnum) in double arithmetic, equals (vertstride/vertformat)*vertnum whenever vertformat divides vertstride and the result is below 2^53.", "quantifier": "all integers in that range", "why_tests_cant": "Double rounding over all integers", "anchors": ["bf2mesh/visiblemesh.py:VisibleMesh.__read_vertices"]}
{"id": "C53", "title": "Equality ignores mmax", "statement": "Material comparison never looks at mmax; it is true exactly when all other fields are equal (floats by value, a NaN equal to nothing). It raises exactly when only mmin differs and the debug message about it cannot be formatted: TypeError if one is missing, else ValueError or OverflowError by the first NaN or infinity.", "quantifier": "all pairs of materials", "why_tests_cant": "All pairs", "anchors": ["bf2mesh/visiblemesh.py:_bf2mat.__eq__"]}
{"id": "C54", "title": "Lod equality is fieldwise", "statement": "Two well-formed lods of meshes of the same kind compare equal exactly when all their fields are equal, materials up to mmax; with the same version and finite material bounds the comparison never raises; lods of versions on both sides of 6 with equal bounds raise TypeError. Without agreeing counts equality is neither fieldwise nor symmetric.", "quantifier": "all pairs of well-formed lods", "why_tests_cant": "All pairs", "anchors": ["bf2mesh/visiblemesh.py:_bf2lod.__eq__", "bf2mesh/visiblemesh.py:_bf2rig.__eq__", "bf2mesh/visiblemesh.py:_bf2bone.__eq__"]}
{"id": "C55", "title": "Geom equality is structural", "statement": "Two geoms compare equal exactly when lodnum and the number of lods agree, whatever the lods hold.", "quantifier": "all pairs of geoms", "why_tests_cant": "All pairs", "anchors": ["bf2mesh/visiblemesh.py:_bf2geom.__eq__"]}
{"id": "C56", "title": "Header and attribute equality is identity of content", "statement": "Two headers, and two vertex attributes, compare equal exactly when all their fields are equal.", "quantifier": "all pairs", "why_tests_cant": "All pairs", "anchors": ["bf2mesh/visiblemesh.py:_bf2head.__eq__", "bf2mesh/visiblemesh.py:_bf2vertattrib.__eq__"]}
{"id": "C57", "title": "What a round trip test by equality shows", "statement": "After exporting a well-formed mesh and loading the result, headers, attributes and geoms compare equal, and a lod equals its counterpart exactly when no float compared (bounds, pivot, matrices, mmin) changes value by rounding to binary32 or is a NaN. For a loaded mesh that is: exactly when it has no NaN there. A lod with a NaN bound equals nothing; the two zeros are equal although their bytes differ.", "quantifier": "all well-formed meshes; all loadable files", "why_tests_cant": "All meshes and files", "anchors": ["bf2mesh/visiblemesh.py:_bf2lod.__eq__", "bf2mesh/visiblemesh.py:VisibleMesh.export"]}
{"id": "C58", "title": "File layout is exactly the documented one", "statement": "A file loads as a mesh of some kind exactly when it consists of the items of that mesh in the fixed order (header, geom table, attribute table, vertex block, index block, u2 unless skinned, nodes of every lod, materials of every lod), each in its native representation, with agreeing counts; export writes exactly that layout, and two different meshes of a kind never share a file.", "quantifier": "every byte string, kind, platform and mesh", "why_tests_cant": "A reader and a writer that make the same mistake pass every round-trip test; only a separate description of the bytes settles it, and it must hold for every combination of counts and versions", "anchors": ["bf2mesh/visiblemesh.py:VisibleMesh.__load", "bf2mesh/visiblemesh.py:VisibleMesh.__export", "bf2mesh/io.py"]}
{"id": "C59", "title": "Collision meshes load exactly the described files", "statement": "A byte string loads as a collision mesh exactly when it starts with the items of a file content with agreeing counts and known collision types (header, geoms, subgeoms, lods with faces, vertices, bounds, data blocks), each in its native representation; the content is determined by the bytes, further bytes are ignored, and every face keeps the material 0 of the constructor while the number of the file goes to the attribute m. Constructing without a name or with an empty one gives an empty mesh; with the name of a file, that file is loaded.", "quantifier": "every byte string, platform and content", "why_tests_cant": "Reader and writer can make the same mistake; every combination of counts and versions", "anchors": ["deprecated/modcolmesh.py:ColMesh.load", "deprecated/modcolmesh.py:bf2collod._read", "deprecated/modcolmesh.py:bf2colface._read", "deprecated/modIO.py"]}
{"id": "C60", "title": "Damaged collision meshes are rejected", "statement": "Every proper prefix of a valid collision mesh is rejected with struct.error, and a collision type outside 0 to 4 in a file of version 9 or later with ValueError, wherever in the file the lod is.", "quantifier": "every content, every cut, every position", "why_tests_cant": "Every cut of every file", "anchors": ["deprecated/modcolmesh.py:ColMesh._read_geoms", "deprecated/modcolmesh.py:coltype"]}
{"id": "C61", "title": "Saving a collision mesh writes its layout", "statement": "Saving succeeds exactly when all stored items are in range and then writes exactly these items in order; if the counts agree, the file loads again, with floats rounded to binary32, the former material as m and the constructor's material.", "quantifier": "every mesh object and platform", "why_tests_cant": "Every mesh, every rounding", "anchors": ["deprecated/modcolmesh.py:ColMesh.save", "deprecated/modcolmesh.py:bf2collod._write"]}
{"id": "C62", "title": "Load then save of a collision mesh", "statement": "Saving an unmodified loaded collision mesh never raises and reproduces its content except that every face material becomes 0 and signalling NaNs become quiet; the file is reproduced exactly when all materials are 0, there is no signalling NaN and nothing follows the content.", "quantifier": "every loadable file", "why_tests_cant": "The samples have material 0 only, so the loss never shows", "anchors": ["deprecated/modcolmesh.py:bf2colface._read", "deprecated/modcolmesh.py:bf2colface._write"]}
{"id": "C63", "title": "Effect of saving a collision mesh on the file system", "statement": "Saving under a name without slash raises FileNotFoundError and changes nothing; a successful save changes the named file only, up to new directories, and constructing from that name loads what was written; a save that fails on an item out of range has already replaced the old file by the bytes before that item.", "quantifier": "every file system, mesh and name", "why_tests_cant": "Every file system and failure point", "anchors": ["deprecated/modcolmesh.py:ColMesh.save"]}
{"id": "C64", "title": "Moving a collision mesh", "statement": "translate moves every vertex of every lod by the offset and changes nothing else, in particular not the bounds, which are stale afterwards; in exact arithmetic two moves are one move by the sum, and a move can be undone.", "quantifier": "every mesh and offset", "why_tests_cant": "Every mesh and offset", "anchors": ["deprecated/modcolmesh.py:ColMesh.translate", "deprecated/modVec3.py:Vec3.__add__"]}
{"id": "C65", "title": "Merging collision meshes", "statement": "A merge that does not raise keeps header, counts and number of lods of the target; a lod without counterpart is unchanged, every other one gets the vertices, ids, faces and data of its counterpart appended, with counts added, and both bounds extended to all vertices. For meshes without shared face objects the faces seen are the own ones, unchanged, then the other ones with corners moved by the vertex count of the other lod. Agreeing counts stay agreeing.", "quantifier": "every pair of meshes and every sharing of face objects", "why_tests_cant": "Every pair of meshes and every aliasing", "anchors": ["deprecated/modcolmesh.py:ColMesh.merge", "deprecated/modcolmesh.py:bf2collod.merge"]}
{"id": "C66", "title": "Corners after a merge", "statement": "After a merge the corners of a face of the other lod refer to the vertices they referred to before if both lods have equally many vertices; with fewer vertices in the other lod its first corners refer to vertices of the target, with more its last corners refer to no vertex.", "quantifier": "every merged pair of lods and every corner", "why_tests_cant": "The test merges a mesh with a copy of itself, where the counts agree", "anchors": ["deprecated/modcolmesh.py:bf2collod.merge"]}
{"id": "C67", "title": "Merging damages the other mesh", "statement": "Merging moves the face objects of the other mesh. If that mesh holds no face object twice, each of its valid faces has no valid corner afterwards, and merging it into a second target moves the faces seen in the first target again.", "quantifier": "every merge", "why_tests_cant": "Every merge and sequence of two merges", "anchors": ["deprecated/modcolmesh.py:bf2collod.merge"]}
{"id": "C68", "title": "When merging collision meshes raises", "statement": "A merge raises exactly when the other mesh has a geom, subgeom or lod without counterpart in the target, and then IndexError.", "quantifier": "every pair of meshes", "why_tests_cant": "Every pair of shapes", "anchors": ["deprecated/modcolmesh.py:ColMesh.merge", "deprecated/modcolmesh.py:bf2colgeom.merge", "deprecated/modcolmesh.py:bf2colsubgeom.merge"]}
{"id": "C69", "title": "Merging a lod with itself does not end", "statement": "Merging a lod that has a face with itself never ends: after any number of rounds the loop over the faces is still running and has appended that many faces.", "quantifier": "every list of faces and every number of rounds", "why_tests_cant": "A test cannot observe non-termination", "anchors": ["deprecated/modcolmesh.py:bf2collod.merge"]}
{"id": "C70", "title": "Equality of collision geoms", "statement": "Two geoms (subgeoms, lods) compare equal exactly when all their fields do, with the attribute m but not the material of the faces; the comparison raises AttributeError exactly at two faces with the same corners one of which was never read; geoms of loaded meshes never raise. A loaded geom equals its saved and reloaded copy exactly when all its materials are 0 and it has no NaN.", "quantifier": "all pairs of lods, subgeoms, geoms; all loadable files", "why_tests_cant": "All pairs and files", "anchors": ["deprecated/modcolmesh.py:bf2collod.__eq__", "deprecated/modcolmesh.py:bf2colface.__eq__", "deprecated/modcolmesh.py:bf2colgeom.__eq__"]}
{"id": "C71", "title": "Translated coordinates are correctly rounded sums", "statement": "On a mesh whose materials tile the vertex array, translate makes of each moved finite coordinate the sum with the offset, correctly rounded to a double (nearest, ties to even, overflow to infinity), exact if the sum is a double; NaNs give NaNs, infinities stay, opposite infinities give NaN.", "quantifier": "all tiled meshes, offsets, coordinates", "why_tests_cant": "All pairs of doubles", "anchors": ["bf2mesh/visiblemesh.py:VisibleMesh.translate"]}
{"id": "C72", "title": "Translating by zero", "statement": "Translating a tiled mesh by -0.0 changes nothing; by 0.0 it turns the moved coordinates equal to -0.0 into 0.0 and changes nothing else (no signalling NaN being present).", "quantifier": "all tiled meshes", "why_tests_cant": "All meshes", "anchors": ["bf2mesh/visiblemesh.py:VisibleMesh.translate"]}
{"id": "C73", "title": "Moving there and back", "statement": "Translating by d and then by -d restores the value of each coordinate whose sum with d is a double; in general it does not: there are finite meshes and offsets where coordinates are lost.", "quantifier": "all tiled meshes and offsets; existence", "why_tests_cant": "All pairs of doubles", "anchors": ["bf2mesh/visiblemesh.py:VisibleMesh.translate"]}
{"id": "C74", "title": "The cross product of the deprecated vector class is wrong", "statement": "In exact arithmetic Vec3.cross(v1, v2) is the cross product exactly when v1.x = v1.z or v2 is along the z axis; it is not orthogonal to its arguments, not antisymmetric, not zero on equal arguments.", "quantifier": "all pairs of vectors", "why_tests_cant": "All pairs of real vectors", "anchors": ["deprecated/modVec3.py:Vec3.cross"]}
{"id": "C75", "title": "Sums, differences and quotients of vectors", "statement": "The components of sums, differences and quotients of Vec3 are correctly rounded; division by a Vec3 (number) raises ZeroDivisionError exactly when one of its components (it) is a zero of either sign, whatever the dividend.", "quantifier": "all vectors of doubles", "why_tests_cant": "All vectors", "anchors": ["deprecated/modVec3.py:Vec3.__sub__", "deprecated/modVec3.py:Vec3.__truediv__"]}
{"id": "C76", "title": "Geometric edits commute with reordering", "statement": "Translating or rotating a mesh and then calling change_geoms_order with an order naming every geom once gives the same mesh as the calls in the other order, for any float arithmetic.", "quantifier": "all tiled meshes, offsets, angles with defined sines, orders", "why_tests_cant": "The equality of two call sequences is claimed for every mesh and every argument", "anchors": ["bf2mesh/visiblemesh.py:VisibleMesh.translate", "bf2mesh/visiblemesh.py:VisibleMesh.rotate", "bf2mesh/visiblemesh.py:VisibleMesh.change_geoms_order"]}
{"id": "C77", "title": "Geometric edits distribute over merge", "statement": "If merge succeeds, then translating (or rotating) both meshes and merging them also succeeds and gives the same mesh as merging first and translating (rotating) the result.", "quantifier": "all pairs of tiled meshes, offsets, angles", "why_tests_cant": "The equality of two call sequences is claimed for every mesh and every argument", "anchors": ["bf2mesh/visiblemesh.py:VisibleMesh.translate", "bf2mesh/visiblemesh.py:VisibleMesh.rotate", "bf2mesh/visiblemesh.py:VisibleMesh.merge"]}
{"id": "C78", "title": "Orders compose", "statement": "Calling change_geoms_order twice gives the same mesh as one call with the composed order.", "quantifier": "all meshes with readable data, all pairs of orders", "why_tests_cant": "The equality of two call sequences is claimed for every mesh and every argument", "anchors": ["bf2mesh/visiblemesh.py:VisibleMesh.change_geoms_order"]}
{"id": "C79", "title": "Reordering distributes over merge", "statement": "If merge succeeds, then reordering both meshes and merging them also succeeds and gives the same mesh as merging first and reordering the result.", "quantifier": "all pairs of meshes with readable data, all orders", "why_tests_cant": "The equality of two call sequences is claimed for every mesh and every argument", "anchors": ["bf2mesh/visiblemesh.py:VisibleMesh.change_geoms_order", "bf2mesh/visiblemesh.py:VisibleMesh.merge"]}
{"id": "C80", "title": "The two directions of a merge", "statement": "If both a.merge(b) and b.merge(a) succeed, each material draws the same triangle corners, with the two parts in swapped order; but one of the two calls can succeed while the other raises OverflowError.", "quantifier": "all pairs of meshes with readable data; existence", "why_tests_cant": "The equality of two call sequences is claimed for every mesh and every argument", "anchors": ["bf2mesh/visiblemesh.py:VisibleMesh.merge"]}
{"id": "C81", "title": "Rotations compose", "statement": "In exact arithmetic: two rotate calls equal one call whose matrix is the product; rotations about one axis add up; full turns change nothing; a rotation is undone by undoing yaw, pitch and roll in three calls, but not in general by one call with the negated angles.", "quantifier": "all tiled meshes over the reals, all angles; existence", "why_tests_cant": "The equality of two call sequences is claimed for every mesh and every argument", "anchors": ["bf2mesh/visiblemesh.py:VisibleMesh.rotate"]}
{"id": "C82", "title": "Rotating a moved mesh", "statement": "In exact arithmetic translate(d) then rotate(r) equals rotate(r) then translate by the rotated d.", "quantifier": "all tiled meshes over the reals, all offsets and angles", "why_tests_cant": "The equality of two call sequences is claimed for every mesh and every argument", "anchors": ["bf2mesh/visiblemesh.py:VisibleMesh.rotate", "bf2mesh/visiblemesh.py:VisibleMesh.translate"]}
{"id": "C83", "title": "The deprecated loader agrees with the package", "statement": "A file that the package loads as a mesh m, followed by any further bytes, is loaded by deprecated modmesh.VisMesh.open as the same mesh (fields equal, attribute fields signed, index always a tuple, of the nodes of a lod only the last kept, trailing bytes ignored), unless the first lod of the file has no material: then UnboundLocalError. Conversely whatever it loads is such a file plus trailing bytes, unless the vertex block is a single float.", "quantifier": "all files, kinds, platforms", "why_tests_cant": "Agreement of two loaders on every file and failure exactly on a class of files", "anchors": ["deprecated/modmesh.py:VisMesh.open", "deprecated/modmesh.py:LoadBF2Mesh", "bf2mesh/visiblemesh.py:VisibleMesh.__load"]}
{"id": "C84", "title": "The deprecated module saves only the last node of a lod", "statement": "modmesh.VisMesh.save of an unmodified loaded mesh never raises; the saved file loads as the original with every node matrix of a lod replaced by its last one and NaN words quieted. Without signalling NaNs the file is reproduced byte for byte if and only if no lod has two different nodes.", "quantifier": "all files that load, kinds, platforms", "why_tests_cant": "An exact criterion over all files for data loss on an unmodified round trip", "anchors": ["deprecated/modmesh.py:VisMesh.save", "deprecated/modmesh.py:VisMesh.open"]}
{"id": "C85", "title": "Where the deprecated module saves to", "statement": "Saving to a bare file name raises FileNotFoundError and changes nothing. Otherwise the target file holds exactly what was serialised, which on an error half-way is a truncated file, and no other file changes; loading the path loads those bytes.", "quantifier": "all meshes, file systems, paths", "why_tests_cant": "Quantifies over file systems and over every serialisation failure", "anchors": ["deprecated/modmesh.py:VisMesh.save"]}
{"id": "C86", "title": "Vertex objects of the deprecated module carry all floats", "statement": "On a mesh whose attribute table describes its vertices completely and in order (packed), modmesh get_vertices succeeds with vertnum objects, and update_vertices with any selection of them (any order, repetitions) makes the vertex array exactly the floats of these vertices, vertnum their number, and changes nothing else but bounds. Writing all back leaves the vertex array as it is.", "quantifier": "all packed meshes, all selections", "why_tests_cant": "Any layout, number and selection of vertices", "anchors": ["deprecated/modmesh.py:VisMesh.get_vertices", "deprecated/modmesh.py:VisMesh.update_vertices", "deprecated/modmesh.py:VisMesh.get_vertex"]}
{"id": "C87", "title": "The deprecated translate on a mesh in order", "statement": "On a packed mesh whose materials tile the vertex array and have bounds, modmesh translate(d) succeeds: each vertex keeps its floats but for the position, to which d is added; bounds grow to the new positions; nothing else changes. On double arithmetic the vertex array is the one bf2mesh's translate computes unless d contains -0.0, and with -0.0 they can differ.", "quantifier": "all packed tiled meshes, all offsets, all double values", "why_tests_cant": "Agreement of two implementations on all doubles; the -0.0 exception is easily missed", "anchors": ["deprecated/modmesh.py:VisMesh.translate", "deprecated/modmesh.py:VisMesh.get_vertices", "deprecated/modmesh.py:VisMesh.update_vertices"]}
{"id": "C88", "title": "The deprecated translate in general", "statement": "On any packed mesh with vertex ranges that exist, translate makes the vertex array the vertices of the materials, material by material, each moved as many times as materials contain it, and vertnum their number. So vertices no material has are dropped and shared ones move repeatedly, while the ranges of the materials stay.", "quantifier": "all packed meshes with existing ranges", "why_tests_cant": "Overlapping and partial ranges over all meshes", "anchors": ["deprecated/modmesh.py:VisMesh.translate", "deprecated/modmesh.py:VisMesh.get_vertices", "deprecated/modmesh.py:VisMesh.update_vertices"]}
{"id": "C89", "title": "The deprecated bounds only grow", "statement": "On a packed mesh with bounds, update_boundaries makes the bounds of every material and lod contain the positions of its vertices, never moves a bound inwards, takes every component from the old bound or a position, and changes nothing else. So moving a mesh there and back may leave larger bounds.", "quantifier": "all packed meshes with bounds", "why_tests_cant": "Order-theoretic statement over all floats with a lawful order", "anchors": ["deprecated/modmesh.py:VisMesh.update_boundaries"]}
{"id": "C90", "title": "The deprecated translate on a mesh without bounds", "statement": "If some material has no bounds, translate raises TypeError after the vertices were moved. A mesh that loads has bounds on all materials exactly if it has no materials, or is not skinned and of version 11.", "quantifier": "all packed tiled meshes; all files that load", "why_tests_cant": "State after an exception, for all meshes and files", "anchors": ["deprecated/modmesh.py:VisMesh.translate", "deprecated/modmesh.py:VisMesh.update_boundaries", "deprecated/modmesh.py:VisMesh.open"]}
{"id": "C91", "title": "The deprecated merge concatenates material by material", "statement": "Merging two packed meshes of the same shape and attribute table, one of them static, the first with bounds, succeeds. Every material gets its own vertices followed by those of the corresponding material, its own indices followed by the other's shifted by its vertex count; materials tile both arrays; bounds only grow and contain all positions; all other fields are unchanged.", "quantifier": "all mergeable pairs of meshes", "why_tests_cant": "All sizes, counts and floats; tests merge one pair of files", "anchors": ["deprecated/modmesh.py:VisMesh.merge", "deprecated/modmesh.py:VisMesh.update_boundaries"]}
{"id": "C92", "title": "The deprecated merge agrees with the package up to 16-bit overflow", "statement": "Where both modules can merge, vertices, indices, counts and material ranges of the results are equal. Where an index would leave 16 bits the package raises OverflowError; the deprecated merge succeeds and saving the result raises.", "quantifier": "all pairs of meshes mergeable in both; all mergeable pairs with an index that overflows", "why_tests_cant": "Equivalence of two programs over all inputs", "anchors": ["deprecated/modmesh.py:VisMesh.merge", "bf2mesh/visiblemesh.py:VisibleMesh.merge", "deprecated/modmesh.py:VisMesh.save"]}
{"id": "C93", "title": "What the deprecated merge does with meshes that do not fit", "statement": "If neither mesh is static, or attribute tables or numbers of geoms differ, NotImplementedError is raised and nothing changes. If the other mesh lacks a counterpart of a material, IndexError is raised with vertices and indices unchanged. If a material of the first mesh has no bounds, TypeError is raised with vertices merged and indices not. Surplus lods and materials of the other mesh are ignored silently.", "quantifier": "all pairs of meshes with such a mismatch", "why_tests_cant": "State after an exception, for all mismatching pairs", "anchors": ["deprecated/modmesh.py:VisMesh.merge"]}
{"id": "C94", "title": "The deprecated order_geoms_by picks geoms and leaves all data where it is", "statement": "With valid ids (negative ones from the end) the geoms become those named, in order, and nothing else changes; an invalid id raises IndexError and changes nothing. On a loaded mesh, a complete order saves to a file that loads as the reordered mesh; a shorter one makes saving raise IndexError and leave a file that does not load. A translation after a reorder gives materials the vertices of others.", "quantifier": "all meshes and orders; all files for saving", "why_tests_cant": "All meshes and orders; the later shuffle needs two calls to show", "anchors": ["deprecated/modmesh.py:VisMeshTransform.order_geoms_by"]}
{"id": "C95", "title": "The deprecated copy_geom_id inserts a copy and counts it", "statement": "With a valid source id the geom is inserted where list.insert puts it and geomnum grows by one; a loaded mesh then saves to a file that loads with the copy. An invalid source id raises IndexError with geomnum already increased, and a loaded mesh can no longer be saved: trying to raises IndexError (if the increased number fits its field) and leaves a file that does not load.", "quantifier": "all meshes, ids and files", "why_tests_cant": "All ids including negative and too large; state after the exception", "anchors": ["deprecated/modmesh.py:VisMeshTransform.copy_geom_id"]}
{"id": "C96", "title": "The deprecated delete_geom_id removes a geom with its data", "statement": "On a tiled mesh held as lists, with a non-negative id, the geom goes with its vertices and indices, all other geoms keep theirs, and materials still tile both arrays. On a freshly loaded mesh the method always raises and changes nothing. A negative id also shifts the geoms in front, leaving a material with a negative start. Other refusals change nothing, except that a tuple of indices raises after vertices are gone.", "quantifier": "all such meshes and ids", "why_tests_cant": "Data of every remaining geom for all meshes; tests delete nothing", "anchors": ["deprecated/modmesh.py:VisMeshTransform.delete_geom_id"]}
{"id": "C97", "title": "The deprecated edit_vertex overwrites one attribute of one vertex", "statement": "On a vertex list the given floats replace those at the attribute's place in that vertex; data that fit change no other vertex; data past the array's end are written as far as it goes, then IndexError. A vertex that does not exist or an absent usage is ignored silently. On a loaded mesh TypeError is raised. Entries marked unused are edited too, so editing a position not at offset 0 also overwrites offset 0.", "quantifier": "all packed meshes, vertices, usages and data", "why_tests_cant": "Frame over all other vertices for all meshes", "anchors": ["deprecated/modmesh.py:VisMeshTransform.edit_vertex"]}
{"id": "C98", "title": "The deprecated rename_texture replaces one map", "statement": "An ASCII path replaces exactly the named map of the named material, negative ids counting from the end. A path that is not ASCII raises ValueError, an id naming nothing IndexError, with nothing changed.", "quantifier": "all meshes, ids and paths", "why_tests_cant": "Frame over all other maps, all combinations of ids", "anchors": ["deprecated/modmesh.py:VisMeshTransform.rename_texture"]}
{"id": "C99", "title": "The deprecated rotate turns positions, normals and tangents, as the package does", "statement": "For given angles there is one vector map such that on every packed mesh with FLOAT3 positions, normals and tangents, tiled materials and bounds, rotate succeeds, applies the map to these three vectors of every vertex, keeps all other floats and grows the bounds. In exact arithmetic the map is the rotation matrix of the three angles. Vertices equal those the package computes. If one of the three attributes is missing it raises AttributeError where the package succeeds, an infinite angle raises ValueError, fewer than three angles IndexError, with nothing changed.", "quantifier": "all such meshes and angles, any sin and cos", "why_tests_cant": "All meshes, angles and vertices; equivalence of two programs", "anchors": ["deprecated/modmesh.py:VisMesh.rotate", "bf2mesh/visiblemesh.py:VisibleMesh.rotate"]}
{"id": "C100", "title": "copy_geom_table appends the geoms of one mesh to another with their data", "statement": "For two meshes with the same number of floats per vertex whose materials tile both arrays, the first one's arrays being lists, copy_geom_table(a, b) appends b's geoms behind a's with their vertices and indices, a's geoms keep theirs, all counts are right and the materials tile both arrays again. The geom objects are shared: b's materials afterwards have a's starts, so b is no longer usable if a had a vertex. On a freshly loaded mesh it raises AttributeError, with geoms already appended that geomnum does not count.", "quantifier": "all such pairs of meshes", "why_tests_cant": "All geom, lod and material structures and array contents", "anchors": ["deprecated/mesh_order_fix.py:copy_geom_table"]}
{"id": "C101", "title": "box_modify removes vertex 24 and redirects index 24 to 14, whatever its arguments", "statement": "remove_vertice_id(mesh, id) removes vertex 24 for every id if there is one (vertices in front keep their numbers, those behind move down by one, materials and indices stay, so tiled materials no longer tile); with at most 24 vertices it only makes the vertices a list. replace_index_id replaces exactly the indices 24 by 14 for all arguments. On a mesh with 25 vertices the two together leave 24 vertices, and every index names the vertex it named before or 14 in place of 24.", "quantifier": "all packed meshes and arguments", "why_tests_cant": "All meshes and ids", "anchors": ["deprecated/box_modify.py:remove_vertice_id", "deprecated/box_modify.py:replace_index_id"]}
{"id": "C102", "title": "remove_attribute removes an attribute from the table and from every vertex, except the first one", "statement": "On a packed mesh with the vertices in a list, removing an attribute in use that is not the first entry and the only entry with its usage deletes the entry, reduces the stride, keeps the table packed, and every vertex object read afterwards is the old one without that attribute. The first entry of the table loses its floats, but entry and stride stay, so the vertex array no longer fits. A usage no entry has changes nothing; on a freshly loaded mesh it raises TypeError with nothing changed.", "quantifier": "all packed meshes, tables, attributes", "why_tests_cant": "All attribute tables, including entries marked unused, and all vertices", "anchors": ["deprecated/box_modify.py:remove_attribute"]}
{"id": "C103", "title": "The deprecated save writes a loadable file for every consistent mesh object", "statement": "For every mesh object whose counts agree with its lists, also one not made by loading, save raises exactly if some integer does not fit its field; otherwise the package loads from the file what the object holds, each float rounded to binary32, the nodes of a lod being copies of the one it holds.", "quantifier": "all consistent mesh objects, all platforms", "why_tests_cant": "All structures, counts, integers and floats", "anchors": ["deprecated/modmesh.py:VisMesh.write_file_data", "deprecated/modmesh.py:VisMesh.save"]}
{"id": "C104", "title": "Histories of deprecated edits keep a mesh in order and savable", "statement": "Any number of translate, rotate, rename_texture, edit_vertex, delete_geom_id and merge calls on a mesh in good order (packed vertices with FLOAT3 positions, normals, tangents; materials tile both arrays and have bounds; counts right) leaves it in good order with the same kind, head and layout; all calls but rename_texture succeed. A save after any history raises exactly if an integer does not fit and else loads to what the object holds. Translate then save then load gives every vertex with its position moved, rotate one vector map applied to positions, normals and tangents.", "quantifier": "all such meshes, all finite histories, all platforms", "why_tests_cant": "Unbounded sequences of calls with any arguments", "anchors": ["deprecated/modmesh.py:VisMeshTransform", "deprecated/modmesh.py:VisMesh.save"]}
{"id": "C105", "title": "The generated boxes of mock_mesh are proper meshes", "statement": "Box() is in good order; on every platform it saves, and both modules load exactly it as a static mesh. Its indices name vertices and each triangle has the normal its three vertices state. Two boxes do not merge, NotImplementedError, because none says it is static. ColBox() saves and loads again on every platform, its faces name vertices, but the bounds it states do not contain all its vertices.", "quantifier": "the two objects, all platforms", "why_tests_cant": "All platforms; the composition with every edit history of C104", "anchors": ["deprecated/mock_mesh.py:Box", "deprecated/mock_mesh.py:ColBox"]}
{"id": "C106", "title": "The deprecated LoadBF2Mesh by file name", "statement": "The kind of a mesh loaded by name is that of the extension of the path, up to case, and never that of a collision mesh. With loadSamples it returns, and then the same mesh as without, exactly if loading without returns, the path has a directory part, and no entry of the directory has an extension beginning with .samp; for a path without directory part it raises FileNotFoundError, and if the first such entry is a file .samples or .samp_gl with two digits, NameError; if it is badly named, IndexError without an underscore or with fewer than two characters after it, ValueError if one of the two is no digit.", "quantifier": "all file systems, paths and directory listings, all platforms", "why_tests_cant": "All directory contents and names", "anchors": ["deprecated/modmesh.py:LoadBF2Mesh", "deprecated/modmesh.py:LoadBF2Sample"]}
{"id": "C107", "title": "What equality means in the deprecated modmesh", "statement": "vertattribs are equal exactly if all fields are; materials exactly if all fields are, floats as numbers, which unlike in the package includes mmax; lods exactly if all fields are and neither has a rig; geoms exactly if their lods are one by one. The geoms of two objects loaded from one file are equal exactly if no lod has a rig and no compared float is a NaN.", "quantifier": "all objects not sharing a NaN or a rig; all files", "why_tests_cant": "All values including NaN and signed zeros", "anchors": ["deprecated/modmesh.py:bf2lod.__eq__", "deprecated/modmesh.py:bf2mat.__eq__", "deprecated/modmesh.py:vertattrib.__eq__", "deprecated/modmesh.py:bf2geom.__eq__"]}
{"id": "C108", "title": "What a session exports last is what it loads", "statement": "In any session of opening, editing, merging and exporting meshes in good order, with exceptions ending calls but not the session, all meshes stay in good order. No directory or file is deleted; a place no export named is unchanged or, if empty, a new directory. What an export without exception wrote is what loading its path gives, floats rounded to binary32, until the next export to that place, whatever is done to the object and to other files. Entering a with block reads nothing again.", "quantifier": "all sessions: any number of meshes, calls, arguments, file systems", "why_tests_cant": "Unbounded interleavings of calls on several objects and files", "anchors": ["bf2mesh/visiblemesh.py:VisibleMesh.export", "bf2mesh/visiblemesh.py:VisibleMesh.__enter__"]}
{"id": "C109", "title": "find_mod_root cuts the current directory after the mod", "statement": "The root is the path up to and including the part after the first part mods, or up to mods if that is the last part; a path without such a part raises ValueError.", "quantifier": "all paths", "why_tests_cant": "All paths", "anchors": ["deprecated/bf2.py:Mod.find_mod_root"]}
{"id": "C110", "title": "Which objects the template parser finds", "statement": "get_root returns type and name of the first command creating an object of one of six types, with the words shifted by one if a space follows ObjectTemplate, None if there is none, and raises only if the file cannot be read. The types SimpleObject and Engine are never found. get_object_path returns the first template file, in the order of os.walk, whose root has the name. get_child_list returns the commands line by line, those of an included file after those of the line. loadFromCon raises TypeError on a file without a root.", "quantifier": "all files, names and directory trees", "why_tests_cant": "All texts", "anchors": ["deprecated/bf2.py:TemplateParser", "deprecated/bf2.py:Mod.get_object_path", "deprecated/bf2.py:GameObject.loadFromCon"]}
{"id": "C111", "title": "Material settings: the first cell of a pair counts", "statement": "From a file of cells and other lines, the damage a material does to another is the number of the first cell for the two, rounded to a double; there is one entry per attacking material, in the order of their first cells.", "quantifier": "all files of cells with other lines between", "why_tests_cant": "All texts and numerals", "anchors": ["deprecated/bf2.py:Materials.parse_settings"]}
{"id": "C112", "title": "The README programs as written save nothing", "statement": "Each of the three programs of the README exports to a bare file name: it changes no file and ends with an exception, FileNotFoundError if it gets as far as the export. The order shown has 18 entries; for the mesh of 22 geoms it is meant for the first program ends with AttributeError, whatever the path.", "quantifier": "all file systems, file names, orders and offsets", "why_tests_cant": "All file systems and meshes", "anchors": ["README.md", "bf2mesh/visiblemesh.py:VisibleMesh.export", "bf2mesh/visiblemesh.py:VisibleMesh.change_geoms_order"]}
{"id": "C113", "title": "The README offset program, with a path, moves the mesh", "statement": "With a target path that has a slash and whose directory exists, reading, translate by three numbers and export ends without exception and writes one file. Loaded, the file is the source with each position component moved by the offset (rounded to double, then to float), every other number of a vertex unchanged, everything else unchanged except bounds, and bounds that contain all positions.", "quantifier": "all file systems, meshes in good order, offsets, platforms", "why_tests_cant": "All meshes, offsets and paths", "anchors": ["README.md", "bf2mesh/visiblemesh.py:VisibleMesh.translate", "bf2mesh/visiblemesh.py:VisibleMesh.export"]}
{"id": "C114", "title": "The README reorder program, with a path, reorders the geoms", "statement": "With a path that has a slash and an order naming every geom once, reading, change_geoms_order and export to the same path ends without exception and overwrites that file only. Loaded, the file has the geoms in the new order, each with its own materials, vertices and indices; everything else is unchanged except bounds, which contain all positions.", "quantifier": "all file systems, meshes in good order, orders, platforms", "why_tests_cant": "All meshes and orders", "anchors": ["README.md", "bf2mesh/visiblemesh.py:VisibleMesh.change_geoms_order", "bf2mesh/visiblemesh.py:VisibleMesh.export"]}
{"id": "C115", "title": "The README merge program, with a path, merges the meshes", "statement": "With a target path that has a slash, two compatible meshes and counts that still fit, reading both, merge and export ends without exception and writes one file. Loaded, each material of the file has the vertices and indices of the first mesh, then those of the second shifted by the vertices of the first; everything else is that of the first mesh except bounds, which contain all positions.", "quantifier": "all file systems, pairs of compatible meshes in good order, platforms", "why_tests_cant": "All pairs of meshes", "anchors": ["README.md", "bf2mesh/visiblemesh.py:VisibleMesh.merge", "bf2mesh/visiblemesh.py:VisibleMesh.export"]}
{"id": "C116", "title": "Updated bounds are exactly determined, and follow merge and reorder", "statement": "On a non-skinned version 11 mesh update_boundaries sets each bound to the very float that is the least (greatest) of 0.0 and the vertex components; so bounds depend on the set of positions only. The box of a lod is the box around those of its materials. After a merge the updated box of each lod and material is the box around those it has in the two meshes; after change_geoms_order each geom keeps its boxes.", "quantifier": "all such meshes with vertices inside the array, all merges and orders that succeed", "why_tests_cant": "All vertex data, including NaNs and signed zeros, and all pairs of meshes", "anchors": ["bf2mesh/visiblemesh.py:VisibleMesh.update_boundaries", "bf2mesh/visiblemesh.py:VisibleMesh.merge", "bf2mesh/visiblemesh.py:VisibleMesh.change_geoms_order"]}
{"id": "C117", "title": "Centring a lod by its centre offset works only around the origin (exact arithmetic)", "statement": "Translating a mesh by the negated result of get_lod_center_offset makes the offset of that lod zero on an axis exactly when the lod had a vertex at or below the origin and one at or above it along this axis. Otherwise the offset stays nonzero; it is always at most half of what it was.", "quantifier": "all bounded tiled meshes over the reals, all lods with a vertex", "why_tests_cant": "All vertex data; a sample around the origin shows nothing wrong", "anchors": ["bf2mesh/visiblemesh.py:VisibleMesh.get_lod_center_offset", "bf2mesh/visiblemesh.py:VisibleMesh.translate", "bf2mesh/visiblemesh.py:VisibleMesh.update_boundaries"]}
{"id": "C118", "title": "box_modify.py makes the edits it lists and saves them; the result is not a consistent mesh", "statement": "On a file that loads as a mesh with 25 vertices and one used FLOAT2 entry for each of UV1 to UV4, box_modify.main runs to its end and writes one file. It first shows the two floats of UV1 of vertex 24. The file loads as the mesh with vertices 0 to 23, without UV2 to UV4, with UV1 of vertex 14 set to (0.5, 1.0), with index 24 replaced by 14, and all else, including geoms and materials, unchanged. So the vertex counts of the materials no longer add up. On the evil_box sample the vertex removed lies at the place of vertex 18, not of vertex 14, so a face changes shape.", "quantifier": "all platforms, file systems and such files", "why_tests_cant": "All meshes with such a table; the script has no tests", "anchors": ["deprecated/box_modify.py:main", "deprecated/box_modify.py:remove_vertice_id", "deprecated/box_modify.py:replace_index_id", "deprecated/box_modify.py:remove_attribute", "deprecated/modmesh.py:VisMesh.save"]}
{"id": "C119", "title": "display_mesh_data shows every attribute of every vertex and every corner", "statement": "On a mesh whose attribute table describes its vertices (at least three floats each) and whose indices name vertices, display_mesh_data does not raise. It shows each table entry followed by the value of that attribute for each vertex in order, then for each index the index and the first three floats of the vertex it names, with a blank line after every third. If the position is stored first, those floats are the position.", "quantifier": "all such meshes", "why_tests_cant": "All tables and vertex arrays", "anchors": ["deprecated/mesh_read.py:display_mesh_data"]}
{"id": "C120", "title": "mesh_order_fix.py swaps geoms 8 and 9 of a file with 17 geoms; box_new.py would write the box", "statement": "If ch_kits.skinnedmesh loads with 17 geoms, mesh_order_fix.main writes one file that loads as the same mesh with geoms 8 and 9 swapped. With fewer geoms it raises IndexError and changes no file. With more it raises IndexError while saving, after the old content of the file has been lost, and what is left does not load. box_new.py, with the box itself in place of an attribute that does not exist, writes a file that both modules load as the box.", "quantifier": "all platforms, file systems and files", "why_tests_cant": "All files; the failure with more geoms needs other files than the author's", "anchors": ["deprecated/mesh_order_fix.py:main", "deprecated/box_new.py", "deprecated/modmesh.py:VisMeshTransform.order_geoms_by"]}
{"id": "C121", "title": "The write tests pass for every file without NaN", "statement": "A mesh opened from a file and exported by export() under a name of the same kind, reopens as exactly the object in memory: same name, flags, numbers. All assertions of test_visiblemesh_write.py on the two objects hold exactly if the file has no NaN among its vertices, pivots and matrices.", "quantifier": "all platforms, file systems and files", "why_tests_cant": "The tests run on three sample files", "anchors": ["tests/test_visiblemesh_write.py", "bf2mesh/visiblemesh.py:VisibleMesh.export", "bf2mesh/mesh.py:BF2Mesh.__init__"]}
{"id": "C122", "title": "When the translate test passes", "statement": "On a mesh whose materials tile its vertices, with one position attribute of three floats, translated and exported, the assertions of test_can_translate_staticmesh hold exactly if (x + d) - d == x for each component x of each position, in double arithmetic. For the offset (0.0, 0.0, 1.5) and a mesh from a file they hold if there is no NaN and each z is zero, infinite, or of a magnitude from 2^-28 to 2^51. There is a mesh with z = 2^-60 on which the test fails though translate does what it should.", "quantifier": "all such meshes", "why_tests_cant": "The tests run on three sample files", "anchors": ["tests/test_visiblemesh_edit.py:test_can_translate_staticmesh", "bf2mesh/visiblemesh.py:VisibleMesh.translate"]}
{"id": "C123", "title": "When the merge and order tests pass", "statement": "After every merge that succeeds, followed by an export, the assertions of test_can_merge_staticmesh hold, and merging two objects of one file is never refused. On a mesh whose materials tile its arrays, changing the order so that geom 0 stays and geom 2 becomes geom 1 makes the assertions of test_edit_order_mesh_data_updated hold if each lod of geom 0 has one material and geom 2 has three lods with materials. With two materials in a lod of geom 0 they can fail, though the order is changed as it should be.", "quantifier": "all such meshes", "why_tests_cant": "The merge test runs on three samples, the order test on one that is not in the repository", "anchors": ["tests/test_visiblemesh_edit.py:test_can_merge_staticmesh", "tests/test_visiblemesh_edit.py:test_edit_order_mesh_data_updated", "bf2mesh/visiblemesh.py:VisibleMesh.merge", "bf2mesh/visiblemesh.py:VisibleMesh.change_geoms_order"]}
{"id": "C124", "title": "Where a merge stops and what it leaves", "statement": "A merge of compatible meshes raises exactly if some pair of materials cannot be merged: the index array of the other mesh is a single number (TypeError), an index is outside it (IndexError), or a shifted index exceeds 16 bits (OverflowError). It stops at the first such pair: the materials before it have their new counts and places, the others and the arrays are as before. After a merge that succeeds all materials have them, and the counts of the mesh are the sums of the materials' counts. A mesh with exactly one index always raises TypeError.", "quantifier": "all compatible meshes with known attribute types, wherever their materials point", "why_tests_cant": "All meshes and all points of failure", "anchors": ["bf2mesh/visiblemesh.py:VisibleMesh.merge"]}
{"id": "C125", "title": "Exporting under the extension of another kind", "statement": "A mesh written for one kind and opened as another is the same mesh, but for the flags of its kind, exactly if both kinds are skinned, or both are not skinned and either both or neither are bundled or no lod has nodes.", "quantifier": "all well-formed meshes that can be written, and all kinds", "why_tests_cant": "All meshes and kinds", "anchors": ["bf2mesh/visiblemesh.py:VisibleMesh.export", "bf2mesh/mesh.py:BF2Mesh.__init__"]}
{"id": "C126", "title": "Rotation error in doubles", "statement": "If the C library's cosines and sines of the three angles are at most 1 and within eps of the real ones, rotate moves every finite position, normal and tangent to a finite vector whose components are within (15 eps + 2^-47) times its length, plus 2^-1070, of the exactly rotated vector; lengths are kept up to twice that.", "quantifier": "all tiled meshes with FLOAT3 vectors that do not overlap, all angles, all vectors up to length 2^1000", "why_tests_cant": "All meshes, angles and vectors; the test compares one mesh with a hand-computed result", "anchors": ["bf2mesh/visiblemesh.py:VisibleMesh.rotate"]}
{"id": "C127", "title": "Rotation error in the saved file", "statement": "A finite double of magnitude at most 2^127 comes back from a file as a finite number within 2^-24 of its magnitude plus 2^-150. A mesh that is rotated, saved and loaded has every position, normal and tangent within (16 eps + 2^-23) times its length, plus 2^-149, of the exactly rotated vector.", "quantifier": "all well-formed tiled meshes with FLOAT3 vectors that do not overlap, all angles, all vectors up to length 2^120", "why_tests_cant": "All meshes, angles and vectors", "anchors": ["bf2mesh/visiblemesh.py:VisibleMesh.rotate", "bf2mesh/visiblemesh.py:VisibleMesh.export"]}
{"id": "C128", "title": "Saving between edits", "statement": "Saving a mesh and loading it before reordering its geoms or merging it makes no difference to whether the edit raises and to what is saved after it, byte for byte. For translations it can make a difference.", "quantifier": "all well-formed meshes that can be saved, all orders, all meshes to merge with", "why_tests_cant": "All meshes; the difference for translations needs coordinates that are rounded twice", "anchors": ["bf2mesh/visiblemesh.py:VisibleMesh.change_geoms_order", "bf2mesh/visiblemesh.py:VisibleMesh.merge", "bf2mesh/visiblemesh.py:VisibleMesh.translate"]}
{"id": "C129", "title": "The script that joins two dividers", "statement": "main() of mesh_merge.py never writes and never returns: once the collision mesh is loaded it raises RuntimeError. Without the stray raise, every lod of the saved mesh is the loaded one beside its copy moved by the distance, with corners of the copied faces at the copied vertices, the whole moved by minus the middle of the first lod's bounds; counts are consistent, so the file loads. The vertices of the first lod are then centred, but the stored bounds are those of before the move.", "quantifier": "all collision meshes, distances, file systems and current directories; centring in exact arithmetic for a first lod with exact bounds", "why_tests_cant": "The script works on one file of a mod that is not in the repository; it cannot be run to its end", "anchors": ["deprecated/mesh_merge.py:main", "deprecated/modcolmesh.py:ColMesh.merge", "deprecated/modcolmesh.py:ColMesh.translate"]}
{"id": "C130", "title": "The rotation sketch", "statement": "Rx, Ry and Rz of rotate.py turn about the three axes. rotate_X uses the yaw for all three turns and ignores pitch and roll, so that what it prints is the point turned by the yaw only for yaws of 0 or 270 degrees up to whole turns; the point written into the script is printed unchanged. It raises IndexError exactly on a position or rotation with fewer than three entries.", "quantifier": "all positions and rotations; the dependence on yaw alone and the exceptions in any arithmetic, the rest in exact arithmetic", "why_tests_cant": "All angles and points; the script prints one point", "anchors": ["deprecated/rotate.py:rotate_X", "deprecated/rotate.py:Rx", "deprecated/rotate.py:Ry", "deprecated/rotate.py:Rz"]}
{"id": "C131", "title": "What the old translate tests assert", "statement": "test_can_translate_colmesh never raises once the meshes are loaded and moved, and passes exactly if the numbers of geoms, subgeoms, lods, vertices and faces agree and every vertex equals the old one plus the offset; faces and bounds are not looked at. On a mesh moved by ColMesh.translate with a finite offset it passes exactly if no vertex holds a NaN. test_can_translate_mesh asserts the truth of a generator object and therefore nothing: none of its assertions can fail, and its outcome does not depend on the vertex data of the moved mesh.", "quantifier": "all collision meshes and offsets; all visible meshes before and after, with any vertex data", "why_tests_cant": "they are the tests: running them shows that they pass, not what passing means", "anchors": ["deprecated/tests_colmesh_edit.py:26-45", "deprecated/tests_vismesh_edit.py:58-76", "deprecated/modVec3.py:9-10"]}
{"id": "C132", "title": "Two pieces of a road joined by the old merge", "statement": "The program of test_can_merge_statics_from_GPO (load a static mesh twice, turn both copies, move the second by the difference of the positions, merge, move the result by the negated middle of the bounds of its first lod) succeeds on every mesh object in good order that has a lod, for all positions and angles with defined sine and cosine. Every material of the result holds the vertices turned by the first rotation and then those turned by the second and moved, all minus the centre, and its indices twice, the second time counted from the second half. The centre is the middle of the bounds as loaded, grown to the turned pieces. In exact arithmetic the result is centred if the loaded bounds do not stick out of the joined pieces; a box, turned, ends entirely on one side of the origin.", "quantifier": "all mesh objects in good order, positions and angles; rotations over any arithmetic with a total comparison, centring over the reals", "why_tests_cant": "the test has one mesh, two positions and two angles, and asserts nothing about the result", "anchors": ["deprecated/tests_vismesh_edit.py:109-145", "deprecated/modmesh.py:674-792"]}
{"id": "C133", "title": "Readers and writers of single parts in the deprecated module", "statement": "The fifteen writers _write_header ... _write_materials, each of which calls the one before and appends one part: the last leaves the file and raises the exception that writing the mesh in one go does; a writer that succeeds leaves a file beginning with what each earlier one would have left. The last reader reads what the loader reads and raises what it raises. For a mesh object in order, every writer succeeds, and the reader of as many parts reads back those parts (floats rounded to binary32), whatever follows in the file and whichever flags besides skinned and bundled are set; the last one needs a material in the first lod. For a mesh just loaded it reads back exactly the parts the mesh has, which is what the tests of tests_vismesh_write.py compare.", "quantifier": "all mesh objects, files, file systems, paths and numbers of parts", "why_tests_cant": "the tests write one sample and compare single fields", "anchors": ["deprecated/modmesh.py:797-1095", "deprecated/tests_vismesh_write.py:41-225"]}
{"id": "C134", "title": "A geom object held in two places of a mesh", "statement": "change_geoms_order puts the geom objects themselves into the new list, so an order naming a geom twice makes the mesh hold one object in two places. From a loaded mesh on, while no order names a geom twice, and for one call of any kind after that (translate, rotate, update_boundaries, get_lod_center_offset, change_geoms_order with any order, merge with another mesh or itself, raising or not), no object is in two places, so each geom is changed at its own place only. On a mesh that holds an object in two places, translate, rotate, update_boundaries and get_lod_center_offset return or raise what they would if the two places held two equal objects, and unless they raise they leave the same data. merge does not: the second visit works on what the first wrote, so vertices of the other mesh can end in no geom.", "quantifier": "all meshes, all sequences of calls, all ways of holding objects in several places; a witness for merge", "why_tests_cant": "no test repeats an id in an order, and which object is changed twice depends on the whole sequence of calls before", "anchors": ["bf2mesh/visiblemesh.py:251-277", "bf2mesh/visiblemesh.py:443-532", "bf2mesh/visiblemesh.py:534-594", "bf2mesh/visiblemesh.py:279-398"]}
{"id": "C135", "title": "What the write tests can and cannot tell", "statement": "For two consistent meshes of one kind, all tests of test_visiblemesh_write.py pass exactly if all fields agree (floats as numbers), except that the upper bounds of materials are not compared. So whatever program wrote a file: if the loader is right, the tests pass, no float is -0.0 or a signalling NaN and the upper bounds are right, then the file is byte for byte the one export writes. A program that writes any other upper bounds, for example the lower bound twice, passes whenever the right program passes.", "quantifier": "all pairs of consistent meshes, all files, all replacements of upper bounds", "why_tests_cant": "It is a statement about the tests: which wrong exporters they cannot notice", "anchors": ["tests/test_visiblemesh_write.py", "bf2mesh/visiblemesh.py:__eq__", "bf2mesh/visiblemesh.py:export"]}
{"id": "C136", "title": "Integer offsets and angles", "statement": "translate and rotate take integers as well as floats. Each integer is converted to the nearest double (ties to even); then the call does what it does with these doubles. Up to 2^53 the integer is exact, so a moved coordinate is the exact sum correctly rounded; beyond, the integer is rounded first, and the sum can be off though the exact sum is a double. An integer of absolute value 2^1024 - 2^970 or more raises OverflowError (in translate only if there is a vertex; in rotate only among the first three angles, and before the IndexError of a list that is too short), and one with more digits than Python converts to text raises ValueError in the log message. A call that raises leaves the mesh as it was.", "quantifier": "all meshes and all lists of integers and floats, any digit limit", "why_tests_cant": "The tests only use small integers and floats", "anchors": ["bf2mesh/visiblemesh.py:translate", "bf2mesh/visiblemesh.py:rotate"]}
{"id": "C137", "title": "What the edit tests can and cannot tell", "statement": "Whatever program edited the mesh. The merge test passes exactly if every material is in the same place in both source meshes and its numbers of vertices and indices are theirs added; a missing material ends it with IndexError; it looks at no vertex, index, start or bound. The order test compares, of the geom that was moved, as many floats as the geom has vertices, and nothing of the index array. The translate test passes exactly if subtracting the offset from each new position of each material's vertices gives the old position; it looks at nothing but positions.", "quantifier": "all meshes that a program may hand to the tests", "why_tests_cant": "It is a statement about the tests: which wrong edits they cannot notice", "anchors": ["tests/test_visiblemesh_edit.py", "bf2mesh/visiblemesh.py:merge", "bf2mesh/visiblemesh.py:change_geoms_order", "bf2mesh/visiblemesh.py:translate"]}
{"id": "C138", "title": "The bounds in a saved file and saving a second time", "statement": "After m.export(f) with its default update of the bounds and s = VisibleMesh(f), for a version 11 mesh that is not skinned: the bounds of every lod and material of s are the box around the origin and the positions of s, except that a zero may have a minus sign. update_boundaries on s only removes these minus signs. Saving s writes the same bytes again exactly if no material of m reaches below zero on some axis by at most 2 ** -150; it always succeeds, and from the second file on every further save and load gives the same bytes. If m was loaded and not edited, or has no such bounds, the second file equals the first. A loaded mesh, moved by one translate call, for which the second file differs from the first exists.", "quantifier": "all meshes of doubles (with NaNs, infinities, any magnitude) with readable positions that can be exported, both platforms; one mesh for the difference", "why_tests_cant": "the repository's write tests compare a file with the values in memory for one sample file, never with bounds of rounded positions, and never save twice; the exceptional meshes need coordinates below 2 ** -149", "anchors": ["bf2mesh/visiblemesh.py:VisibleMesh.update_boundaries", "bf2mesh/visiblemesh.py:VisibleMesh.export", "bf2mesh/io.py:write_float3", "bf2mesh/io.py:read_float3"]}
{"id": "C139", "title": "When update_boundaries raises", "statement": "update_boundaries raises nothing if no material has vertices. Otherwise: an attribute not marked unused whose type or usage is unknown makes it raise ValueError, also on meshes without bounds; on a version 11 mesh that is not skinned, no used POSITION attribute makes it raise AttributeError, and a last POSITION of fewer than three floats or not ending inside the vertex makes it raise IndexError. With vertices inside the vertex list and attributes at whole floats these are all the cases: it raises nothing exactly if there are no vertices, or all used attributes are known and, where bounds are wanted, there is a readable position.", "quantifier": "all meshes, all vertex declarations; vertformat not 0, as in every mesh that was loaded", "why_tests_cant": "the test files have one vertex declaration; no test updates the bounds of a mesh with another", "anchors": ["bf2mesh/visiblemesh.py:VisibleMesh.update_boundaries", "bf2mesh/bf2types.py:D3DDECLTYPE", "bf2mesh/bf2types.py:D3DDECLUSAGE"]}
{"id": "C140", "title": "Drift of positions and normals over many edits", "statement": "After any list of translate, rotate, update_boundaries and export-then-load calls that raises nothing, every position, normal and tangent is finite and within the sum of the single rounding errors of what the same edits give in exact arithmetic (positions follow moves and turns, normals and tangents turns only). With vectors no longer than B a move adds at most 2^-51 B + 2^-1074, a turn 4(15e + 2^-47) B + 2^-1069 where e bounds the error of the C library's cosines and sines, a save 2^-22 B + 2^-149, an update nothing. So lengths of normals are kept up to that sum; moving there and back returns positions to within 2^-50 B + 2^-1073; turning about the vertical by an angle and its negative returns vectors to within 8(15e + 2^-47) B + 2^-1068.", "quantifier": "all meshes in good order with attributes that do not overlap, all lists of edits with finite offsets, all vertices and vector attributes, all C libraries accurate to e", "why_tests_cant": "tests make one or two edits of one mesh and compare with a tolerance or exactly; the claim is about lists of any length and says how the errors add up", "anchors": ["bf2mesh/visiblemesh.py:VisibleMesh.translate", "bf2mesh/visiblemesh.py:VisibleMesh.rotate", "bf2mesh/visiblemesh.py:VisibleMesh.update_boundaries", "bf2mesh/visiblemesh.py:VisibleMesh.export"]}
{"id": "C141", "title": "What an exception says about a file", "statement": "Loading raises ZeroDivisionError exactly if the file begins with a header, geom table, attribute table and vertex format in which vertformat is 0; TypeError exactly if vertformat is not 0, the computed number of vertex floats is 1 and that float is there; AttributeError exactly if the file is a file that loads followed by at least one more byte; struct.error in all other cases in which it does not load; and nothing else. A file that raises something other than struct.error raises the same with any bytes appended. The constructor raises AttributeError without a file name or with an empty one; else FileNotFoundError, NotADirectoryError or IsADirectoryError from opening the file; else what loading raises; and nothing else.", "quantifier": "all byte strings, platforms, kinds, file systems and file names", "why_tests_cant": "the tests load a few good files and one bad one; which exceptions can occur and what each means is about all byte strings", "anchors": ["bf2mesh/visiblemesh.py:VisibleMesh.__init__", "bf2mesh/visiblemesh.py:VisibleMesh.__load", "bf2mesh/visiblemesh.py:VisibleMesh.__enter__", "bf2mesh/io.py:read_float"]}
{"id": "C142", "title": "When translate and rotate raise, and what", "statement": "translate raises nothing but ValueError, ZeroDivisionError, UnboundLocalError and IndexError, rotate nothing but IndexError, ValueError and ZeroDivisionError. For a mesh whose materials lie inside the vertex array and whose attributes start at whole floats, translate succeeds exactly if there is no vertex, or no position and nothing to add, or the numbers to add fit between the start of the first position and the end of the vertex. rotate succeeds exactly if at least three angles are given and there is no vertex, or every position, normal and tangent in turn has three floats inside what is left of the vertex (turning one of four floats shortens the vertex) and, if there is any, the angles have a cosine and a sine; without FLOAT4 vectors this means that all of them are FLOAT3 inside the vertex. The first that cannot be turned says what is raised: ZeroDivisionError for vertformat 0, ValueError for an unknown type, IndexError for too few floats. No attribute with a float in use: ValueError from both.", "quantifier": "all meshes (with the stated conditions for the exact criteria), all offsets and rotations, all C libraries", "why_tests_cant": "the tests move and turn one good mesh; the claim is an exact criterion over all attribute tables", "anchors": ["bf2mesh/visiblemesh.py:VisibleMesh.translate", "bf2mesh/visiblemesh.py:VisibleMesh.rotate"]}
{"id": "C143", "title": "When change_geoms_order raises, and what it leaves", "statement": "For every mesh and every order: a wrong number of ids is an AttributeError, an attribute in use with an unknown type a ValueError. Otherwise the ids are taken one by one, and the first at which the method stops says what is raised: IndexError if it names no geom; for a geom with a material, TypeError if the index array is a bare int and ZeroDivisionError if a vertex has no floats. If there is no such id, nothing is raised. After an exception vertices and indices are as they were and the geoms differ at most in where the data of their materials starts; geoms that no id in front of the bad one names are untouched; only an IndexError leaves any change. Without an exception the geoms named are listed in the order of the ids, the same but for where their data starts.", "quantifier": "all meshes (not only consistent ones), all lists of ids", "why_tests_cant": "the test reverses the geoms of one good mesh; the claim is an exact criterion with the state after every exception", "anchors": ["bf2mesh/visiblemesh.py:VisibleMesh.change_geoms_order"]}
{"id": "C144", "title": "A file left by a failing export never loads", "statement": "If export raises while it writes a mesh whose counts agree with its lists, it raises struct.error, or TypeError for a bare index, and constructing a mesh from the file it leaves raises struct.error. So an export that gets as far as opening its file either raises nothing and the file loads as the mesh with its floats rounded, or raises and the file does not load; a part of a mesh is never taken for a mesh. With a list of indices it raises exactly if some number does not fit its field. This holds after any history of edits of a mesh in good order. Without the agreement of the counts it is false: a file left by an exception may load, as another mesh.", "quantifier": "all meshes with counts that agree, every failing number, all platforms, all file systems", "why_tests_cant": "every point at which writing may stop, for every mesh", "anchors": ["bf2mesh/visiblemesh.py:VisibleMesh.export", "bf2mesh/visiblemesh.py:VisibleMesh.__load", "bf2mesh/io.py"]}
{"id": "C145", "title": "What no editing call touches", "statement": "After any sequence of calls of translate, rotate, update_boundaries, get_lod_center_offset, change_geoms_order and merge (with another mesh or itself), with any arguments, raising or not, on any loaded mesh: kind, head, vertex format and the unnamed numbers are as loaded, there are as many geoms, and each geom there is one that was loaded, with all its lods, rigs, nodes, pivots, materials, texture names and their counts. Only change_geoms_order moves geoms; only merge changes numbers of vertices and indices; only these two change indices and the places of materials; only update_boundaries, and get_lod_center_offset asking for it, changes boxes, and these two change nothing else. No name of the other mesh gets in by merging.", "quantifier": "all meshes, all finite sequences of calls with all arguments and outcomes, including orders that put one geom object in two places", "why_tests_cant": "a test runs a few calls that succeed; this is every sequence, and what is left by calls that raise half way", "anchors": ["bf2mesh/visiblemesh.py:VisibleMesh.change_geoms_order", "bf2mesh/visiblemesh.py:VisibleMesh.merge", "bf2mesh/visiblemesh.py:VisibleMesh.update_boundaries", "bf2mesh/visiblemesh.py:VisibleMesh.translate", "bf2mesh/visiblemesh.py:VisibleMesh.rotate"]}
{"id": "C146", "title": "Which exceptions the editing methods raise", "statement": "In any sequence of calls on a mesh loaded from a file, translate raises nothing but ValueError, UnboundLocalError and IndexError; rotate ValueError and IndexError; update_boundaries, and get_lod_center_offset when it updates bounds, ValueError, AttributeError and IndexError; get_lod_center_offset otherwise IndexError; change_geoms_order AttributeError, ValueError, TypeError, IndexError and ZeroDivisionError; merge, with any other mesh or itself, TypeError, ValueError, IndexError and OverflowError. Each of these is raised by a first call on some loaded mesh.", "quantifier": "all files that load, all sequences of calls with all arguments and outcomes, any C library; witnesses for each exception", "why_tests_cant": "that nothing else is ever raised is a statement about all meshes and all sequences of calls", "anchors": ["bf2mesh/visiblemesh.py:VisibleMesh.change_geoms_order", "bf2mesh/visiblemesh.py:VisibleMesh.merge", "bf2mesh/visiblemesh.py:VisibleMesh.canMerge", "bf2mesh/visiblemesh.py:VisibleMesh.update_boundaries", "bf2mesh/visiblemesh.py:VisibleMesh.translate", "bf2mesh/visiblemesh.py:VisibleMesh.rotate", "bf2mesh/visiblemesh.py:VisibleMesh.get_lod_center_offset"]}
{"id": "C147", "title": "Texts of headers, attributes and faces, and the with statement", "statement": "str of a header has five lines, each a label and that number in decimal, and equal headers are exactly those with equal texts. str of a vertex attribute raises ValueError exactly if its type or usage is unknown; otherwise it shows flag, offset, type, size of the type and name of the usage, and equal texts mean equal attributes, however this Python prints enum members. The message canMerge logs for two different attributes shows the first of them twice, and making it decides whether canMerge raises. In the deprecated modules the text of an attribute is its four numbers; that of a collision face its vertices and the material that was read, never the one that is saved, and a face that was not read has none. str of a mesh always raises NotImplementedError. A with statement over a constructed mesh runs its body on the mesh as it is, whatever happened to the file, and hides no exception.", "quantifier": "all headers, attributes and faces, all ints, both ways of printing enum members, all bodies and file systems", "why_tests_cant": "that no two different headers or attributes look alike is a statement about all pairs", "anchors": ["bf2mesh/visiblemesh.py:_bf2head.__str__", "bf2mesh/visiblemesh.py:_bf2vertattrib.__str__", "bf2mesh/visiblemesh.py:VisibleMesh.__str__", "bf2mesh/visiblemesh.py:VisibleMesh.__enter__", "bf2mesh/visiblemesh.py:VisibleMesh.__exit__", "bf2mesh/visiblemesh.py:VisibleMesh.canMerge", "deprecated/modmesh.py:vertattrib.__str__", "deprecated/modcolmesh.py:bf2colface.__str__"]}
{"id": "C148", "title": "How many objects loading a file makes", "statement": "Constructing a mesh from a file that loads makes exactly one object for each geom, lod, rig, bone, material and vertex attribute of the mesh, fewer than the file has room for C longs. Any file, loading or not, makes at most 2^31 objects (2^63 with 8-byte longs) for each long it has room for. No better limit holds for files that do not load: lists of objects are made as soon as their count is read, so that a file which ends inside or just behind the table of geoms raises struct.error only after all geoms and lods it announces have been made; 25 bytes make 2147483647 geoms, and every further 4 bytes 2147483648 objects more.", "quantifier": "all files, kinds and sizes of long; the bomb for every length 25 + 4k", "why_tests_cant": "the limit is about all files; the bad files exhaust the memory of the machine that tests them", "anchors": ["bf2mesh/visiblemesh.py:VisibleMesh.__read_geom_table", "bf2mesh/visiblemesh.py:VisibleMesh.__read_vertattrib_table", "bf2mesh/visiblemesh.py:_bf2geom.load", "bf2mesh/visiblemesh.py:_bf2lod.load_nodes_rigs", "bf2mesh/visiblemesh.py:_bf2lod.load_materials", "bf2mesh/visiblemesh.py:_bf2rig.load"]}
{"id": "C149", "title": "A file left by a failing save of a collision mesh never loads", "statement": "Saving a collision mesh raises nothing but struct.error while it writes, and exactly if some number does not fit its field. If the counts of the mesh agree with its lists, constructing a collision mesh from the file it leaves raises struct.error; so a save that gets as far as opening its file either raises nothing and the file loads, or raises and the file no longer loads. Merging leads there: if a lod merged in has a face with a corner that exceeds 32767 when the vertex count of its lod is added, as two lods of more than 16384 vertices have, the merge raises nothing, but the result cannot be saved and the attempt leaves a file that does not load. Without the agreement of the counts a file left by an exception may load, as another mesh.", "quantifier": "all collision meshes with counts that agree, every failing number, all platforms, all file systems, all merges", "why_tests_cant": "every point at which writing may stop, and meshes with more vertices than the samples have", "anchors": ["deprecated/modcolmesh.py:ColMesh.save", "deprecated/modcolmesh.py:ColMesh.merge", "deprecated/modcolmesh.py:bf2collod.merge", "deprecated/modcolmesh.py:ColMesh.load"]}
{"id": "C150", "title": "A moved and saved coordinate is the correctly rounded sum", "statement": "The file holds binary32 numbers but translate adds doubles, so a moved coordinate is rounded twice before it is stored. If the offset is itself a number of binary32, this does no harm: for every finite coordinate of a loaded mesh, what translate followed by export stores, and what loading that file gives, is the exact sum correctly rounded to binary32 (nearest, ties to even, infinite exactly from half a unit above the largest number). The doubles that are such numbers are exactly those with at most 24 bits, a last bit of at least 2^-149, and less than 2^128 in size; every finite float of a loaded mesh is one. With other offsets the wrong neighbour may be stored.", "quantifier": "all files, all tiled meshes, all finite coordinates and all binary32 offsets, all platforms", "why_tests_cant": "2^64 pairs of numbers, and double rounding shows only near the middle between two numbers", "anchors": ["bf2mesh/visiblemesh.py:VisibleMesh.translate", "bf2mesh/visiblemesh.py:VisibleMesh.export", "bf2mesh/io.py:write_float", "bf2mesh/io.py:read_float"]}
{"id": "C151", "title": "How long a saved file is", "statement": "The length of a mesh file that loads, and of one that is exported from a mesh whose counts agree with its lists, is a closed formula of the numbers of geoms, lods, bones, nodes, materials, maps, letters of names, attributes, vertex floats and indices, and of the size of a C long. If a loaded mesh is in order, then after any edits (moves, rotations, updated bounds, reorderings, merges, saving and loading in between) the exported file differs in length exactly by 4 bytes per float and 2 per index that were added. It is never shorter than the file loaded; moving, turning, updating bounds and reordering keep its length, and a merge adds exactly the vertex and index bytes of the other mesh.", "quantifier": "all files, all meshes in order, all edit histories, all platforms", "why_tests_cant": "unbounded numbers of parts and histories; the tests compare meshes, not lengths", "anchors": ["bf2mesh/visiblemesh.py:VisibleMesh.export", "bf2mesh/visiblemesh.py:VisibleMesh.merge", "bf2mesh/visiblemesh.py:VisibleMesh.change_geoms_order", "bf2mesh/visiblemesh.py:VisibleMesh.translate"]}
{"id": "C152", "title": "A file left by a failing save of the deprecated module never loads", "statement": "save of deprecated/modmesh.py, applied to a mesh object whose counts agree with its lists, raises nothing but struct.error, and that exactly if some number does not fit its field. Whatever part of the file it has written by then, the package's loader raises struct.error on it and the deprecated loader raises too. So a save that gets as far as opening its file either succeeds and leaves a file that loads as the same mesh with floats rounded to single precision, or raises and leaves a file that does not load; also after any history of translate, rotate, rename_texture, edit_vertex, delete_geom_id and merge. In particular merging meshes so that an index exceeds 65535 succeeds, but the result cannot be saved, and trying to destroys the file. With counts that do not agree a file left by an exception may load, as another mesh.", "quantifier": "all mesh objects with agreeing counts, all edit histories, all platforms", "why_tests_cant": "the tests save only meshes that fit; where the exception comes depends on which of unboundedly many numbers does not fit", "anchors": ["deprecated/modmesh.py:VisMesh.save", "deprecated/modmesh.py:LoadBF2Mesh", "deprecated/modmesh.py:VisMesh.merge"]}
{"id": "C153", "title": "Rotating by zero degrees keeps finite numbers and spoils the others", "statement": "Let the three angles be such that the C library gives the cosine one and the sine a zero, as for zero degrees. On a mesh whose materials tile the vertex array and whose positions, normals and tangents are FLOAT3 and do not overlap: if their components are finite, rotate succeeds, keeps every number that is not in a vector, and keeps every component of a vector except that -0.0 may become 0.0. If moreover there is no -0.0 in a vector, rotate changes nothing, and a file loaded, rotated and exported comes back with the same bytes. The sign of a zero can really be lost. If a vector has an infinite component or a NaN, wherever it is, its first component is a NaN afterwards.", "quantifier": "all meshes of the described form, all angles that do not turn, all implementations of sin and cos", "why_tests_cant": "the result depends on the signs of zeros and on special values, which no sample file has", "anchors": ["bf2mesh/visiblemesh.py:VisibleMesh.rotate"]}
{"id": "C154", "title": "get_wings prints the wing commands of included files, and a loaded jet has no wings", "statement": "get_wings of deprecated/bf2.py ends normally exactly if every .tweak file that a line of the template includes can be read. It then has printed, in order, for each line of each of them the first command that creates or names a wing or sets a lift; a lift is a number with a decimal point and maybe a sign, or else digits without a sign, so that a negative whole number is not recognised. It raises exactly if such a file cannot be read, with the exception of the first one, after having printed what the lines before gave. Wings of the template itself are ignored. Jet.loadFromCon, if it succeeds, sets type and name to those of the root and wings to None, whatever the files hold; if it fails, the wings are as before, and type and name are new exactly if there was a root.", "quantifier": "all file contents, all sets of word characters without the space, all jets", "why_tests_cant": "nothing tests get_wings; texts are unbounded", "anchors": ["deprecated/bf2.py:TemplateParser.get_wings", "deprecated/bf2.py:Jet.loadFromCon"]}
{"id": "C155", "title": "display_material_data shows a material unambiguously, and what mesh_read.py needs", "statement": "display_material_data of deprecated/mesh_read.py prints, for a material that exists (Python indices), a title with the geom and one line for each of alphamode, fxfile, technique, mapnum, every map with its number, vnum, vstart, inum and istart, and does not raise; otherwise it raises IndexError after the title. The lines determine these fields: integers are written in decimal, an absent alphamode as None, names as Python bytes literals from which the bytes can be read back, whatever they are. mesh_read.py itself ends normally exactly if its file loads and geoms 17 and 18 have a first lod with a first material; it then shows these two; otherwise it raises what loading raises, or IndexError.", "quantifier": "all mesh objects, all indices, all names, all file systems", "why_tests_cant": "nothing tests what is printed; names are arbitrary bytes", "anchors": ["deprecated/mesh_read.py:display_material_data"]}
{"id": "C156", "title": "Merging many meshes in a row stacks them, until 16 bits do not suffice", "statement": "for other in others: mesh.merge(other). If all meshes can be read and fit the first one (canMerge), the loop raises nothing exactly if no index, moved up by the vertices of the materials at its place of all meshes before it, exceeds 65535; otherwise it raises OverflowError. If it raises nothing, each material has the vertices of the materials at its place of all meshes in order and their indices in order, those of each mesh moved up by the vertices of all meshes before it; so every triangle corner is kept; all else of the first mesh (header, boxes, nodes, names) is kept, the materials tile both arrays and the counts are the sums. n copies of a mesh can be merged into it exactly if no index exceeds 65535 when n times the vertices of its material are added; if every material uses its last vertex, exactly if n + 1 times its vertices are at most 65536. Meshes that do not fit the first one are passed over silently: the loop does the same as without them. At a merge that raises, the loop stops with its exception and leaves the mesh as that merge left it.", "quantifier": "all meshes with readable data, all numbers of meshes", "why_tests_cant": "the tests merge two small meshes; the limit needs tens of thousands of vertices and errors accumulate along the loop", "anchors": ["bf2mesh/visiblemesh.py:VisibleMesh.merge", "bf2mesh/visiblemesh.py:VisibleMesh.canMerge"]}
{"id": "C157", "title": "Records of sample files: what smp_sample.read and smp_face.read take", "statement": "smp_sample.read (deprecated/modmesh.py) takes 24 bytes and a C long: position, rotation, face; smp_face.read takes 72 bytes: v1, n1, v2, n2, v3, n3. Both overwrite what the object held. From a shorter file they take all bytes and raise struct.error, and exactly the fields whose bytes were all there are set. Where a C long has 8 bytes a sample record of the format (28 bytes) is overrun: the position of the second of two records is read 4 bytes too late.", "quantifier": "all files, all objects, all platforms", "why_tests_cant": "the tests of the repository use a class that does not exist, so these readers are never run", "anchors": ["deprecated/modmesh.py:smp_sample.read", "deprecated/modmesh.py:smp_face.read"]}
{"id": "C158", "title": "Which bytes of a file an edit changes", "statement": "If a mesh with agreeing counts can be exported, then so can the moved, rotated or re-bounded mesh, and the two files have the same length and differ only in these bytes: after translate, the four bytes of each float of the vertex block that was moved (they are the binary32 bytes of the sum); after rotate, those of positions, normals and tangents; after update_boundaries, those of the boxes of lods and materials. So no integer, name, index, matrix, pivot or other vertex attribute in the file changes. For a file without signalling NaNs this holds between the file that was loaded and the one that is saved. The places are given by explicit offsets.", "quantifier": "all meshes with tiled vertices, all offsets and angles, all platforms", "why_tests_cant": "the tests compare parsed objects, not bytes, and only of one file", "anchors": ["bf2mesh/visiblemesh.py:VisibleMesh.translate", "bf2mesh/visiblemesh.py:VisibleMesh.rotate", "bf2mesh/visiblemesh.py:VisibleMesh.update_boundaries", "bf2mesh/visiblemesh.py:VisibleMesh.export"]}
{"id": "C159", "title": "When the old write tests pass", "statement": "The tests of deprecated/tests_vismesh_write.py, on a file that the deprecated module loads as a mesh neither skinned nor bundled (with not exactly one vertex float) and a place where the copy can be written. The test of the header never raises and passes exactly if the header's u3, u4, u5 are from -5 to 256, since it compares them with `is`. The tests of the geom table pass if there are as many geoms as they look at (one, two) and raise IndexError otherwise. The test of the nodes raises IndexError without a first lod and otherwise passes exactly if there is no NaN in that lod's box and nodes. All other tests of single parts pass; those of the vertex and index block would pass whatever was read. The three tests that compare the saved copy with the file pass exactly if the module reads the whole file and either no lod has two different nodes and no float is a signalling NaN, or filecmp does not read the files because their times agree.", "quantifier": "all platforms, file systems, files and tests of the module", "why_tests_cant": "these are the tests: they run on one file each, and cannot tell on which files they would fail or what they do not notice", "anchors": ["deprecated/tests_vismesh_write.py:TestVisMeshRead", "deprecated/modmesh.py:VisMesh._write_materials", "deprecated/modmesh.py:VisMesh._read_materials"]}
{"id": "C160", "title": "When the tests of the vertex generator pass", "statement": "The tests of deprecated/tests_vismesh_generator.py, on a mesh whose attribute table describes its vertices completely and in order. test_can_serialize_vertices passes if no attribute is marked unused, NaNs or not, and fails on every mesh with a vertex whose table has an entry of type UNUSED (and none of FLOAT4), as tables in files end with. test_can_deserialize_materials_vertices (bounds present, positions FLOAT3, no negative range) does not depend on the materials' ranges: it passes exactly if the vertices are a tuple without NaN. test_can_deserialize_materials_vertices_pavement on a mesh in good order whose numbers fit their fields passes exactly if there is no NaN among the vertices; on a mesh whose materials name existing vertices in any way it passes only if these, one after the other, are as numbers the whole array. On Box() the first two pass.", "quantifier": "all packed meshes, tables, vertex data and material ranges", "why_tests_cant": "these are the tests: they run on one box and one file, and cannot tell on which meshes they would fail or what they do not notice", "anchors": ["deprecated/tests_vismesh_generator.py:TestVisMeshVertexGenerator", "deprecated/modmesh.py:VisMesh.get_vertices", "deprecated/modmesh.py:VisMesh.update_vertices"]}
{"id": "C161", "title": "What the skipped tests of the deprecated editing methods would say", "statement": "The three skipped tests of deprecated/tests_vismesh_edit.py, on a skinned mesh. test_can_edit_geoms_order, if counts are right, numbers fit their fields and the materials name vertices and indices that exist, passes exactly if no bone matrix has a NaN; NaNs among the vertices do not matter. test_can_copy_geom_by_ref passes whatever the floats are, unless there is no geom (IndexError) or one more does not fit the count (struct.error). test_can_delete_geom, on any skinned mesh that was loaded, ends with an exception before its first assertion: TypeError if geom 1 has a first lod with a first material, since tuples have no deletion, and IndexError otherwise. On another kind the copy test is a RuntimeError and the other two fail.", "quantifier": "all platforms, all mesh objects (the delete test: all loaded ones)", "why_tests_cant": "these are the tests, and they are skipped: nobody knows from running the suite that one of them cannot pass on any file", "anchors": ["deprecated/tests_vismesh_edit.py:TestVisMesh_SkinnedMesh", "deprecated/modmesh.py:VisMeshTransform.delete_geom_id", "deprecated/modmesh.py:VisMeshTransform.copy_geom_id", "deprecated/modmesh.py:VisMeshTransform.order_geoms_by"]}
{"id": "C162", "title": "A save that stops anywhere leaves a file that does not load", "statement": "All three savers empty their file and write from the front to the end, so a process killed or a disk full leaves the first bytes of what would have been written. For every mesh whose counts agree with its lists and every such part short of the whole (or the whole, if the save raised), VisibleMesh raises struct.error on the file of export; on the file of the deprecated save VisibleMesh raises struct.error and modmesh raises too, struct.error if the first lod has a material and the numbers fit their fields; on the file of a collision mesh ColMesh raises struct.error. In general: a file that raises struct.error does so when cut anywhere; what the deprecated loaders return or raise on a file they return or raise on every longer one, except for struct.error; a cut file of the package makes modmesh raise struct.error, or UnboundLocalError if the first lod has no material.", "quantifier": "all consistent meshes, platforms and cut points, also within a number; all byte strings", "why_tests_cant": "every byte of every save is a place to stop", "anchors": ["bf2mesh/visiblemesh.py:VisibleMesh.export", "deprecated/modmesh.py:VisMesh.save", "deprecated/modcolmesh.py:ColMesh.save", "deprecated/modmesh.py:VisMesh.open", "deprecated/modcolmesh.py:ColMesh.load"]}
{"id": "C163", "title": "The kind of a mesh on Windows", "statement": "With ntpath.splitext for os.path.splitext the kind of a file name is that of the name with slashes for its backslashes, so it does not depend on which separators are used. It is the same as on POSIX except exactly for names that end in a backslash, any number of dots and one of the four extensions, in any case: these have that kind on POSIX and none on Windows (and are then loaded with the static layout).", "quantifier": "all file names", "why_tests_cant": "all names, and the tests run on one system", "anchors": ["bf2mesh/mesh.py:BF2Mesh.__init__"]}
{"id": "C164", "title": "When the tests of collision meshes pass", "statement": "The tests of deprecated/tests_colmesh_write.py and test_can_merge_geoms of tests_colmesh_edit.py, run on any file, wherever their output can be written. If the file does not load, the header and geoms tests end with the exception of the load. On every file that loads test_can_write_header passes; test_can_write_geoms raises nothing and passes exactly if every face of the file has the number 0 and no float is a NaN (saving writes 0 for the number of a loaded face); test_can_create_colmesh_from_mock passes on every platform. test_can_merge_geoms on a loaded mesh and its deep copy passes exactly if for every lod the doubled counts fit a long and every face corner plus the number of vertices fits a signed short; otherwise it ends with struct.error.", "quantifier": "all files, platforms, file systems in which the output can be written, and heaps holding the mesh and its copy", "why_tests_cant": "the tests run on one sample, on which they pass", "anchors": ["deprecated/tests_colmesh_write.py:TestColMeshWrite", "deprecated/tests_colmesh_edit.py:test_can_merge_geoms", "deprecated/modcolmesh.py:ColMesh.save", "deprecated/modcolmesh.py:ColMesh.merge"]}
{"id": "C165", "title": "Every exception a collision mesh file can raise, and what it says about the file", "statement": "Loading a collision mesh with deprecated/modcolmesh.py raises ValueError exactly if the file is of version 9 or later, well-formed up to the collision type of some lod, and that type is not 0 to 4. In every other case in which it does not load it raises struct.error, and then bytes are missing: with some bytes appended the file loads or has a wrong collision type. ColMesh(filename) raises nothing without a name or with an empty one; else exactly what opening the file raises (FileNotFoundError, NotADirectoryError, IsADirectoryError), else what loading raises.", "quantifier": "all byte strings, platforms, file systems and names", "why_tests_cant": "the tests load one valid sample", "anchors": ["deprecated/modcolmesh.py:ColMesh.load", "deprecated/modcolmesh.py:ColMesh.__init__", "deprecated/modcolmesh.py:bf2collod"]}
{"id": "C166", "title": "Every exception the deprecated loader can raise, and what it says about the file", "statement": "Loading a file with deprecated/modmesh.py raises ZeroDivisionError exactly if the file says that a vertex number takes no bytes; UnboundLocalError exactly if everything up to the materials can be read, there is a lod and the first lod has no material; and struct.error in every other case in which it does not load. It raises ZeroDivisionError for exactly the files for which the package does; if it raises struct.error the package raises struct.error or TypeError; if the package raises struct.error it raises struct.error or UnboundLocalError. Appended bytes change neither the mesh loaded nor an exception other than struct.error. LoadBF2Mesh(path) raises what opening the file raises, else what its bytes say.", "quantifier": "all byte strings, kinds of mesh, platforms, file systems and names", "why_tests_cant": "the tests load a few valid samples", "anchors": ["deprecated/modmesh.py:VisMesh.open", "deprecated/modmesh.py:VisMesh._read_materials", "deprecated/modmesh.py:LoadBF2Mesh"]}
{"id": "C167", "title": "How long the files of collision meshes are", "statement": "A save of a collision mesh with deprecated/modcolmesh.py that does not raise writes a file whose length is the sum of two numbers. The first depends on the numbers of geoms, parts and lods and the version. The second is the length of the contents of the lods: 8 bytes for a face, 12 for a vertex, 2 for a vertex id, 8 bytes and two longs for an item of ydata, 2 bytes for an item of zdata and, from version 10 on, a long for an item of adata. A file that loads is at least as long as the file of the mesh; it loads the same with anything else after that part, and no shorter part of it loads. Loading and saving makes no file longer. translate keeps the length. merge adds the contents of the lods of the other mesh and nothing else.", "quantifier": "all collision meshes, byte strings, offsets and platforms", "why_tests_cant": "the tests look at the length of one sample file", "anchors": ["deprecated/modcolmesh.py:ColMesh.save", "deprecated/modcolmesh.py:ColMesh.load", "deprecated/modcolmesh.py:ColMesh.merge", "deprecated/modcolmesh.py:ColMesh.translate"]}
{"id": "C168", "title": "What the tests that only read say about a file", "statement": "The tests of deprecated/tests_vismesh_read.py that are not skipped, on a file that loads with the flags the test sets: a test passes exactly if its assertions are true of the loaded mesh; the one about vertices passes exactly if length times format is number times stride, where number times stride is below 2^53. On such a file only five of the twenty tests can raise: the one about the stride KeyError or ValueError, and only if an attribute has a type without a length in the table, those about the attributes, the nodes, the materials and the skinned materials IndexError, and only if what they index is missing. A test on a file that cannot be opened raises what opening raises, and if its reader raises, then loading the file raises the same. All fifteen tests of the static sample pass exactly if the mesh has one geom with one lod with one material as listed, nine given attributes, stride 72, 450 numbers in vertices and 36 in the index; two files whose meshes differ only in the values of vertices and index have the same results. The tests that load pass exactly if the file loads and its extension is that of the kind. The tests of tests_samples_read.py pass on no file. The tests of tests_colmesh_read.py raise on no file that loads, and pass exactly if u1 is 0 and the version 10, or if the mesh takes 1511 bytes and its first lod has the numbers listed.", "quantifier": "all file systems, paths, files, flags and platforms", "why_tests_cant": "they are the tests; each runs on one sample file, and this says which other files they accept", "anchors": ["deprecated/tests_vismesh_read.py", "deprecated/tests_samples_read.py", "deprecated/tests_colmesh_read.py"]}
{"id": "C169", "title": "Integer offsets and angles in the deprecated modules", "statement": "translate and rotate of deprecated/modmesh.py and translate of deprecated/modcolmesh.py take numbers that may be integers. With no integer too large for a double they do what they do with the doubles that stand for the numbers: a float itself, an integer correctly rounded. On a packed mesh with positions of three numbers only the first three numbers of the offset matter, however large the others are; on one whose materials tile the vertex array and have bounds, a finite coordinate moved by an integer up to 2^53 becomes the exact sum correctly rounded. An integer too large for a double raises OverflowError and leaves the mesh as it was, if a material has a vertex; rotate raises it always. rotate with fewer than three angles raises OverflowError if one of them is too large, else IndexError. A collision mesh with a vertex raises OverflowError and stays as it was, one without a vertex does not raise.", "quantifier": "all meshes, lists of integers and floats, and mathematical libraries", "why_tests_cant": "the tests use a few small offsets; these are all integers and floats", "anchors": ["deprecated/modmesh.py:VisMesh.translate", "deprecated/modmesh.py:VisMesh.rotate", "deprecated/modcolmesh.py:ColMesh.translate", "deprecated/modVec3.py:Vec3.__add__"]}
{"id": "C170", "title": "Merging several collision meshes one after the other", "statement": "Collision meshes that share no face object, merged by the deprecated merge into one mesh one after the other without an exception: every lod of the first mesh is followed, in order, by the vertices, vertex ids and faces of its counterparts, its counts become the sums, and the corners of every merged face are moved by the number of vertices of the face's own lod, not by the number of vertices before it. So if all lods have the same number of vertices, the faces of every merged mesh, also of the second and later ones, point at the vertices of the first merged mesh. Whatever face objects are shared, each is moved once for every time it occurs in a lod of a merged mesh, by the number of vertices of that lod; so a mesh merged twice has its faces twice in the result, both moved twice. The chain ends without an exception exactly if every mesh matches the first one, else with IndexError. It then leaves the mesh and the face objects as the merge that raised left them. Meshes of one version with consistent counts make one with consistent counts.", "quantifier": "all collision meshes and all lists of meshes to merge, of any length", "why_tests_cant": "the tests merge at most two meshes; these are chains of any length", "anchors": ["deprecated/modcolmesh.py:ColMesh.merge"]}
{"id": "C171", "title": "The same program with the package and with the deprecated module", "statement": "Load the same files with the package and with the deprecated module, make the same calls of translate (no offset is -0.0), rotate (sine and cosine defined) and merge (one of the two meshes is static, the package merges them, at most 2^53 floats), and update the package's boundaries at any points. If the loaded meshes are in good order, at every point both modules hold the same mesh but for bounding boxes: the same header, tables, materials, vertices, indices and last nodes, float for float. Neither module raises when translating, rotating or merging. Either both can save what they hold or none can; the two files have the same length, and the package loads from them the same mesh, again but for bounding boxes.", "quantifier": "all files both modules load as meshes in good order, all sequences and trees of such calls of any length, all platforms, all functions for sine and cosine", "why_tests_cant": "the tests compare no results of the two modules; these are all sequences of calls on all files", "anchors": ["bf2mesh/visiblemesh.py:VisibleMesh.translate", "bf2mesh/visiblemesh.py:VisibleMesh.rotate", "bf2mesh/visiblemesh.py:VisibleMesh.merge", "deprecated/modmesh.py:VisMesh.translate", "deprecated/modmesh.py:VisMesh.rotate", "deprecated/modmesh.py:VisMesh.merge"]}
{"id": "C172", "title": "How long the files of the deprecated visible-mesh module are, and how edits change the length", "statement": "A mesh of the deprecated module whose counts agree with its lists, saved without an exception, fills a file of exactly the length its counts and names give: one byte, eleven longs (twelve unless skinned), 8 bytes for each vertex attribute, 4 for each float, 2 for each index, and per geom, lod, material, map, node and bone a fixed number of bytes plus the letters of the names. What is loaded from a file has the length of that file. translate, rotate, edit_vertex and a permutation by order_geoms_by keep the length; merge adds the vertices and indices of the other mesh and nothing else; rename_texture adds the letters of the new name and takes away those of the old one; copy_geom_id adds the length of the geom alone; delete_geom_id takes away that of the geom and the vertices and indices of its materials.", "quantifier": "all mesh objects in shape, all files, all edits with arguments the method accepts, all platforms", "why_tests_cant": "the tests compare saved files with one or two originals; no test looks at lengths of edited meshes", "anchors": ["deprecated/modmesh.py:VisMesh.save", "deprecated/modmesh.py:VisMesh.translate", "deprecated/modmesh.py:VisMesh.merge", "deprecated/modmesh.py:VisMeshTransform.delete_geom_id", "deprecated/modmesh.py:VisMeshTransform.copy_geom_id", "deprecated/modmesh.py:VisMeshTransform.rename_texture", "deprecated/modmesh.py:VisMeshTransform.edit_vertex", "deprecated/modmesh.py:VisMeshTransform.order_geoms_by"]}
{"id": "C173", "title": "How far the edits of the deprecated visible-mesh module are from exact ones", "statement": "Take a mesh the deprecated module comes to hold by loading files in good order and editing them as in C171, and make any list of its translate and rotate calls that raise nothing (distances finite and not -0.0, sine and cosine within e of the true ones). If the exactly edited vector is never longer than B and the errors of the single calls add up to at most B <= 2^126, every position, normal and tangent is finite and within that sum of the exactly edited one; lengths of normals and tangents change by at most the sum. In the file saved afterwards the error of one rounding to binary32 is added. Rotating by angles with cosine one and sine zero keeps every number, if positions, normals and tangents are finite, except that -0.0 may become 0.0.", "quantifier": "all meshes both modules come to hold by the same calls, all lists of edits, all vertices, all platforms, all functions for sine and cosine within the error", "why_tests_cant": "tests compare single vertices after one call; these are bounds for all lists of calls", "anchors": ["deprecated/modmesh.py:VisMesh.translate", "deprecated/modmesh.py:VisMesh.rotate", "deprecated/modmesh.py:VisMesh.save"]}
{"id": "C174", "title": "Merging several visible meshes one after the other in the deprecated module", "statement": "Take a mesh of the deprecated visible-mesh module and other meshes to merge into it one after the other, all in good order, with equal vertex tables and equal counts, the first static or all others static (each pair has a static one), and at most 2^53 floats together. The loop raises nothing, whatever the indices, and leaves a mesh in good order. Every material consists of the vertices of the materials at its place of all meshes, in order, and of their indices, those of each mesh moved up by the vertices of all meshes before it; header, vertex table, names, nodes and bones are those of the first mesh. If the indices of each material name its own vertices, every triangle corner names the vertex it named before. The result can be saved exactly if its counts fit their fields and no index that was moved up exceeds 65535 (the first mesh being savable and no index negative). The file is longer by four bytes for every float and two for every index merged. At a mesh that does not fit by kind, table or number of geoms the loop stops with NotImplementedError and keeps what it merged before. At a merge that raises anything else it stops with that exception and leaves the mesh as that merge left it.", "quantifier": "all lists of meshes in good order, all materials, all platforms", "why_tests_cant": "tests merge one mesh into another; this is every number of merges", "anchors": ["deprecated/modmesh.py:VisMesh.merge", "deprecated/modmesh.py:VisMesh.save"]}
{"id": "C175", "title": "Which bytes of a file an edit of the deprecated module changes", "statement": "If a visible mesh in good order can be saved by the deprecated module, then so can the moved, turned or re-bounded mesh and the one with an edited vertex, and the two files have the same length and differ only in these bytes: after translate those of the positions (each is the binary32 form of the sum) and of the boxes of lods and materials; after rotate those of positions, normals, tangents and boxes; after the update of boundaries those of the boxes; after edit_vertex the four bytes of each float given, which are its binary32 form. After rename_texture (an ASCII name whose length fits its field) the file is the same before the name with its length and behind it. So no integer, index, matrix or other vertex attribute changes in the file. The places are given by explicit offsets.", "quantifier": "all meshes in good order, all offsets, angles, vertices and names, all platforms", "why_tests_cant": "the tests compare parsed objects of one file, not bytes", "anchors": ["deprecated/modmesh.py:VisMesh.translate", "deprecated/modmesh.py:VisMesh.rotate", "deprecated/modmesh.py:VisMesh.edit_vertex", "deprecated/modmesh.py:VisMesh.rename_texture", "deprecated/modmesh.py:VisMesh.save"]}
{"id": "C176", "title": "Damage to a file that loading does not notice", "statement": "Call a byte of a loadable file free if it belongs to a value nothing else in the file depends on: floats, indices, entries of the attribute table, letters of names, unknown fields, ranges, bone ids, the alpha mode, the node count of a bundled mesh; not to the version, a count, a length or the vertex format. Then any bytes put in the place of the file load, to a mesh with the same counts, lengths, version and vertex format, exactly if they are as many and differ in free bytes only. Each field of the damaged file is what its bytes say, and is as before exactly if its bytes are. Damage to the bytes of some floats of the vertex block changes those floats and nothing else. The deprecated module notices no more than the package. So most of a file is not protected at all (225 of the 281 bytes of a file with one triangle).", "quantifier": "all loadable files, all damage, all kinds and platforms", "why_tests_cant": "the tests load intact files; all possible damage cannot be enumerated", "anchors": ["bf2mesh/visiblemesh.py:VisibleMesh.__init__", "bf2mesh/visiblemesh.py:_bf2lod.load_nodes_rigs", "bf2mesh/visiblemesh.py:_bf2mat.load", "deprecated/modmesh.py:VisMesh.open"]}
{"id": "C177", "title": "Damage to a collision mesh file that loading does not notice", "statement": "Call a byte of a loadable collision mesh file free if it belongs to a value nothing else in the file depends on: vertex numbers and materials of faces, vertices, their ids, bounds, the tree blocks, the neighbour block, the first and the unknown fields; not to the version, a count or a collision type (which must be one of five). Then any bytes put in the place of the file load, to a mesh with the same version, collision types, counts and lengths, exactly if the file up to the end of the mesh is as long and differs in free bytes only; what follows the mesh is ignored. Both files hold the same kinds of fields at the same places, and each field is as before exactly if its bytes are. So most of a file is not protected at all (266 of the 330 bytes of a file with two lods of one triangle).", "quantifier": "all loadable collision mesh files, all damage, all platforms", "why_tests_cant": "the tests load intact files; all possible damage cannot be enumerated", "anchors": ["deprecated/modcolmesh.py:ColMesh.load", "deprecated/modcolmesh.py:bf2collod._read", "deprecated/modcolmesh.py:bf2colface._read"]}
{"id": "C178", "title": "Which names export makes a directory for on Windows", "statement": "On Windows the directory export asks for, os.path.dirname of the name, is empty exactly if the name has neither a backslash nor a slash nor a drive (a colon as its second character); export to such a bare name raises before anything is written, as on POSIX, and with all other directories in place no other name does. Below a directory that is neither a drive nor on the network it is that directory, whichever separator is used; in the root of a drive it is the root with its separator, relative to a drive the drive. On the network (two separators, or \\\\?\\UNC\\ in front, and a server that is not called ?) a share is its own directory, what lies in it has the share with its separator, and what lies in a directory of it has that directory. Without a drive and without two separators in front it is what POSIX gives for the path with slashes for backslashes. A name that has a directory on POSIX has one on Windows; the converse fails exactly for names without slash that have a backslash or a drive, so a script that exports to out\\box.staticmesh works on Windows only.", "quantifier": "all names, all sets of existing directories", "why_tests_cant": "the tests run on one system and export below directories only", "anchors": ["bf2mesh/visiblemesh.py:VisibleMesh.export"]}
{"id": "C179", "title": "Which bytes of a collision mesh file saving and moving change", "statement": "A collision mesh that can be saved can be saved after moving it, and the two files are equally long and differ in bytes of vertices only: at most twelve bytes for each vertex; neither bounds nor anything else is adapted. Loading a file and saving it changes no byte but those of the materials of faces and of signalling NaNs (what follows the mesh is dropped), without signalling NaNs at most two bytes for each face; loading, moving and saving no byte but those and the vertices.", "quantifier": "all collision meshes and files, all offsets, all platforms", "why_tests_cant": "the tests compare a few values of one mesh; no test compares files byte by byte over all meshes", "anchors": ["deprecated/modcolmesh.py:ColMesh.translate", "deprecated/modcolmesh.py:ColMesh.save", "deprecated/modcolmesh.py:bf2colface._write"]}
{"id": "C180", "title": "A collision mesh moved along with its visible mesh stays on it", "statement": "A coordinate of a moved collision mesh is the exact sum correctly rounded (infinities and NaNs follow IEEE 754); loaded from a file, moved by numbers of single precision and saved, every finite coordinate is the exact sum correctly rounded to single precision. After any list of moves and saves with loading again, a vertex is within the sum of the single rounding errors of the exact place, if it stays within the bound. If a visible mesh and a collision mesh are moved and saved alike, with any updates of the bounds of the visible mesh in between, then a collision vertex with exactly the coordinates of a visible vertex has exactly the coordinates of that vertex afterwards.", "quantifier": "all collision meshes, files and offsets, all lists of moves and saves, all consistent visible meshes", "why_tests_cant": "the tests move one mesh once; no test compares a collision mesh with a visible mesh, and none covers all lists of edits", "anchors": ["deprecated/modcolmesh.py:ColMesh.translate", "bf2mesh/visiblemesh.py:VisibleMesh.translate"]}
{"id": "C181", "title": "The bounds of a moved mesh", "statement": "If the bounds of a version 11 mesh that is not skinned are updated before and after a move, and all positions are finite before and after, then the new bounds of each lod and each material lie within the old bounds moved by the offset (each number the rounded sum) and extended to the origin, and equal these on every side on which the old bounds did not end at the origin. On the other sides the old bounds do not tell: two meshes with the same bounds of all lods can have different bounds after the same move.", "quantifier": "all consistent meshes, all finite offsets", "why_tests_cant": "the tests look at the bounds of one box around the origin", "anchors": ["bf2mesh/visiblemesh.py:VisibleMesh.update_boundaries", "bf2mesh/visiblemesh.py:VisibleMesh.translate"]}
{"id": "C182", "title": "The order of vertices along an axis", "statement": "After any list of moves by finite offsets, updates of the bounds, and saves with loading again, two vertices of a visible mesh, or two vertices of a collision mesh, are in the same order along each axis as before, if their coordinates are finite in the end: a coordinate that was at most the other still is, and coordinates that were equal bit for bit still are, so a side parallel to two axes stays flat. The same holds for moves of the deprecated visible-mesh module (by offsets without -0.0, on a mesh that both modules load alike). How far they are apart along an axis changes by at most twice the sum of the rounding errors of the single edits. The order need not stay strict: two vertices of one mesh that differ on each axis have the same position after a move far away, and moving back does not part them.", "quantifier": "all consistent meshes, all lists of moves, updates and saves, all pairs of vertices", "why_tests_cant": "the tests move one box by one offset and do not compare vertices with each other", "anchors": ["bf2mesh/visiblemesh.py:VisibleMesh.translate", "deprecated/modcolmesh.py:ColMesh.translate", "bf2mesh/visiblemesh.py:VisibleMesh.export"]}
{"id": "C183", "title": "Edits keep the shape of a mesh", "statement": "After any list of moves, turns, updates of the bounds, and saves with loading again of a visible mesh (moves and turns in the deprecated module, moves and saves of a collision mesh), the distance of any two vertices differs from what it was by at most twice the sum of the errors of the single edits, provided that the exactly edited vertices stay within B of the origin and the errors for B add up to at most B. The scalar product of any two normals or tangents of a visible mesh no longer than B, of one or of two vertices, changes by at most E(2B+E), where E is that sum, wherever the mesh was moved.", "quantifier": "all consistent meshes, all lists of edits, all pairs of vertices, all mathematical libraries whose cosines and sines are within a given error", "why_tests_cant": "the tests turn one mesh by one angle and compare single numbers", "anchors": ["bf2mesh/visiblemesh.py:VisibleMesh.rotate", "bf2mesh/visiblemesh.py:VisibleMesh.translate", "deprecated/modmesh.py:VisMesh.rotate", "deprecated/modcolmesh.py:ColMesh.translate"]}
{"id": "C184", "title": "A list of edits can be undone up to rounding", "statement": "After any list of moves, turns, updates of the bounds, and saves with loading again of a visible mesh (moves and turns in the deprecated module, moves and saves of a collision mesh) the calls that undo it raise nothing: going backwards through the list, a move by the opposite distances for every move, and for every turn three calls that take back yaw, pitch and roll. Afterwards every position, normal and tangent (every vertex of a collision mesh) is finite and within four times (for a collision mesh, twice) the sum of the errors of the edits of what it was before them, provided that the exactly edited vector stays within B of the origin and that this bound, with the errors for B, is at most B.", "quantifier": "all consistent meshes, all lists of edits, all vertices and vector attributes, all mathematical libraries whose cosines and sines are within a given error at the angles used", "why_tests_cant": "the tests never undo an edit, and no finite number of them covers all lists of edits", "anchors": ["bf2mesh/visiblemesh.py:VisibleMesh.rotate", "bf2mesh/visiblemesh.py:VisibleMesh.translate", "deprecated/modmesh.py:VisMesh.rotate", "deprecated/modcolmesh.py:ColMesh.translate"]}
{"id": "C185", "title": "Edits do not mirror a mesh", "statement": "After any list of moves, turns, updates of the bounds, and saves with loading again of a visible mesh, the signed volume spanned by two edges of a triangle, up to L long, and a normal or tangent of any vertex, up to B long, differs from what it was by at most (L+2E)^2 (B+E) - L^2 B, where E is the sum of the errors of the edits: a normal that clearly points to one side of a triangle still does. The signed volume between four vertices with edges up to L changes by at most (L+2E)^3 - L^3. The vertices, edited exactly, must stay within B of the origin, and E be at most B. The deprecated module keeps the side of a normal in the same way over moves and turns.", "quantifier": "all consistent meshes, all lists of edits, all choices of vertices, all mathematical libraries whose cosines and sines are within a given error", "why_tests_cant": "the tests check single rotated numbers; a mirrored mesh keeps all distances and angles", "anchors": ["bf2mesh/visiblemesh.py:VisibleMesh.rotate", "bf2mesh/visiblemesh.py:VisibleMesh.translate", "deprecated/modmesh.py:VisMesh.rotate"]}
{"id": "C186", "title": "The bounds of an edited mesh are those of the exactly edited vertices, up to rounding", "statement": "After any list of moves, turns, updates of the bounds, and saves with loading again of a visible mesh of a kind and version with bounds of materials, update_boundaries gives every lod and every material the bounds of its exactly edited vertices and the origin, up to the sum E of the errors of the edits: the bounds are finite, the origin is between them, no exactly edited vertex is outside by more than E, and every coordinate of a bound is 0.0 or within E of that of an exactly edited vertex. The exactly edited vertices must stay within B of the origin and the errors for B add up to at most B. Without moves, no coordinate of a bound exceeds R + E in size, where R is the distance of the farthest vertex from the origin. After the calls that undo the edits (C184) and an update, the bounds are those of the vertices before the edits, up to four times E.", "quantifier": "all consistent meshes with one position attribute, all lists of edits, all lods and materials, all mathematical libraries whose cosines and sines are within a given error", "why_tests_cant": "the tests compare the bounds of one unedited file", "anchors": ["bf2mesh/visiblemesh.py:VisibleMesh.update_boundaries", "bf2mesh/visiblemesh.py:VisibleMesh.rotate", "bf2mesh/visiblemesh.py:VisibleMesh.translate"]}
{"id": "C187", "title": "Centring a lod in doubles", "statement": "On a visible mesh of a kind and version with bounds, get_lod_center_offset, translate by the negated result and get_lod_center_offset again all succeed. Along every axis the second offset is, up to 2^-47 of the largest coordinate of the mesh: 0 when the lod has a vertex at or below the origin and one at or above it; otherwise, with the vertices from lo to hi along this axis, half of the one of lo and hi/2 (or of hi and lo/2, when hi is negative) that is nearer to zero. So a lod on one side of the origin is not centred by this. The largest coordinate must be from 2^-1000 to 2^120.", "quantifier": "all consistent meshes with one position attribute and finite positions, all lods named by any index, all axes", "why_tests_cant": "the tests compute the offset of one file and do not move by it", "anchors": ["bf2mesh/visiblemesh.py:VisibleMesh.get_lod_center_offset", "bf2mesh/visiblemesh.py:VisibleMesh.translate", "bf2mesh/visiblemesh.py:VisibleMesh.update_boundaries"]}
{"id": "C188", "title": "Centring a lod again and again (exact arithmetic)", "statement": "On a visible mesh of a kind and version with bounds, any number n of rounds of get_lod_center_offset and translate by the negated result succeeds. Along an axis on which the vertices of the lod were from lo to hi, the offset after them is: 0 when lo <= 0 <= hi and n > 0; when 0 < lo, hi/2^(n+1) as long as 2^n (hi - lo) <= hi, then hi/2^n - (hi - lo)/2 for the first n with hi <= 2^n (hi - lo), and 0 from the round after that on; likewise with signs changed when hi < 0. So a lod that is flat along an axis away from the origin is never centred along it.", "quantifier": "all meshes in order, all lods, all numbers of rounds", "why_tests_cant": "no test repeats the move; the number of rounds has no bound", "anchors": ["bf2mesh/visiblemesh.py:VisibleMesh.get_lod_center_offset", "bf2mesh/visiblemesh.py:VisibleMesh.translate"]}
{"id": "C189", "title": "A quarter turn in the saved file", "statement": "The double nearest to a right angle in radians is not a right angle, so rotate by 90 degrees mixes a little of one coordinate into the other. If the C library gives the sine of the angle as exactly plus or minus one and the cosine as at most 2^-50, and the other two angles as no turn, then after rotate, export and load every position, normal and tangent of numbers of binary32 up to 2^126 has its coordinates exactly where a quarter turn about that axis puts them, except a coordinate less than a millionth (2^-20) of the one it was mixed with, which is off by at most 2^-46 of the latter. The exception is real: with the cosine of an IEEE library a coordinate that ought to become zero does not.", "quantifier": "all meshes in order that can be exported, all vertices, all three axes, all C libraries with such sines and cosines; existence", "why_tests_cant": "the one test that rotates uses 45 degrees and is skipped with a note to look at the exported file", "anchors": ["bf2mesh/visiblemesh.py:VisibleMesh.rotate", "bf2mesh/visiblemesh.py:VisibleMesh.export"]}
{"id": "C190", "title": "Quarter turns one after the other", "statement": "With a C library as in C189: after any number of rotate calls that are quarter turns about one axis each, every call followed by export and load, every position, normal and tangent of numbers of binary32 up to 2^126, none of whose coordinates is less than a millionth (2^-20) of another, is exactly where the turns put it. So four equal turns bring it back exactly. The quarter turns meant are those by plus or minus 90 degrees of the rotation matrices of C27. The condition on the coordinates is needed: with the cosine of an IEEE library four turns do not bring (0, 1, 2) back. One such turn of the deprecated module, saved by it, is exact in the same way for a mesh object that both modules have loaded from one file and edited alike.", "quantifier": "all meshes in order, all lists of quarter turns, all vertices, all C libraries with such sines and cosines; existence", "why_tests_cant": "the only test that rotates does so once, by 45 degrees, and is skipped; the number of turns has no bound", "anchors": ["bf2mesh/visiblemesh.py:VisibleMesh.rotate", "bf2mesh/visiblemesh.py:VisibleMesh.export", "deprecated/modmesh.py:VisMesh.rotate"]}
{"id": "C191", "title": "A half turn in the saved file", "statement": "If the C library gives the cosine of an angle as exactly minus one and the sine as at most 2^-50 (the sine of the double nearest to pi is not zero), and the other two angles as no turn, then after rotate, export and load every position, normal and tangent of numbers of binary32 up to 2^126 has the coordinate along the axis unchanged and the two others negated: exactly, except that one less than a millionth (2^-20) of the other is off by at most 2^-46 of the latter. For vectors none of whose coordinates is less than a millionth of another: two half turns about one axis, each saved and loaded, bring them back exactly, and a half turn saved puts them exactly where two quarter turns about the same axis as in C190, each saved, put them.", "quantifier": "all meshes in order that can be exported, all vertices, all three axes, all C libraries with such sines and cosines", "why_tests_cant": "no test rotates by 180 degrees; the one that rotates is skipped", "anchors": ["bf2mesh/visiblemesh.py:VisibleMesh.rotate", "bf2mesh/visiblemesh.py:VisibleMesh.export"]}
{"id": "C192", "title": "Turns whose result is in binary32 are saved exactly", "statement": "If the C library gives cosines and sines at most 1 and within 2^-50 of the real ones for the three angles, then after rotate, export and load every coordinate of a position, normal or tangent whose exactly turned value is a finite number of binary32, and at least 2^-18 of the length of the vector, has exactly this value. In particular, if all three angles are multiples of 90 degrees, every vector of numbers of binary32 none of which is below 2^-18 of its length is exactly the turned one after saving and loading, also when several angles are given in one call.", "quantifier": "all meshes in order that can be exported, all angles, all finite vectors up to length 2^120, all C libraries that are this accurate", "why_tests_cant": "the only test that rotates is skipped; the claim is about all angles and vectors", "anchors": ["bf2mesh/visiblemesh.py:VisibleMesh.rotate", "bf2mesh/visiblemesh.py:VisibleMesh.export"]}
{"id": "C193", "title": "Edits that stay within binary32 are carried out exactly", "statement": "Take any list of translate, update_boundaries, export with loading again, and rotate followed by export and loading, that raises nothing. If a position, normal or tangent, edited in exact arithmetic, is after every one of these edits made of finite numbers of binary32 up to 2^118, and after a turn has no coordinate below 2^-18 of its length, then at the end it is exactly the exactly edited vector. Distances must be finite, cosines and sines within 2^-50 of the real ones. So a position that is moved, saved, moved back and saved is exactly where it was, if it and the moved position are such numbers.", "quantifier": "all meshes in order, all lists of edits, all vertices and vector attributes, all C libraries that are this accurate", "why_tests_cant": "the tests make one edit each; the claim is about all lists of edits", "anchors": ["bf2mesh/visiblemesh.py:VisibleMesh.translate", "bf2mesh/visiblemesh.py:VisibleMesh.rotate", "bf2mesh/visiblemesh.py:VisibleMesh.export"]}
{"id": "C194", "title": "Moves of a collision mesh that stay within binary32 are carried out exactly", "statement": "Take any list of translate by finite offsets and save with loading again of a collision mesh with deprecated/modcolmesh.py that raises nothing. If a vertex, moved in exact arithmetic, is after every one of these edits, and before the first, made of finite numbers of binary32 up to 2^118, then at the end it is exactly the exactly moved vertex. So a vertex that is moved, saved, moved back and saved is exactly where it was, if it and the moved vertex are such numbers.", "quantifier": "all collision meshes in order, all lists of moves and saves, all vertices", "why_tests_cant": "the deprecated tests make one move each; the claim is about all lists of moves and saves", "anchors": ["deprecated/modcolmesh.py:ColMesh.translate", "deprecated/modcolmesh.py:ColMesh.save", "deprecated/modcolmesh.py:ColMesh.load"]}
{"id": "C195", "title": "Edits of the deprecated module that stay within binary32 are carried out exactly", "statement": "Take any list of translate with deprecated/modmesh.py. If a position, normal or tangent, moved in exact arithmetic, is before the first and after every one of these moves made of finite numbers of binary32 up to 2^118, then at the end it is exactly the exactly moved vector, in memory and in the file then saved. If a rotate comes last, and the exactly turned vector is made of such numbers and has no coordinate below 2^-18 of its length, it is exactly that in the file then saved. Distances must be finite and not -0.0, cosines and sines within 2^-50 of the real ones.", "quantifier": "all meshes of the deprecated module that load or come from such by edits, in order, all lists of moves, all vertices and vector attributes, all C libraries that are this accurate", "why_tests_cant": "the deprecated tests make few edits; the claim is about all lists of moves and all turns", "anchors": ["deprecated/modmesh.py:VisMesh.translate", "deprecated/modmesh.py:VisMesh.rotate", "deprecated/modmesh.py:VisMesh.save"]}
