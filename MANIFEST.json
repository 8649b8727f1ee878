{
 "claims": [
  {
   "property": "C01",
   "status": "proved",
   "theorems": [
    "Bf2.C01_unmodified_export_identical"
   ],
   "note": ""
  },
  {
   "property": "C02",
   "status": "proved",
   "theorems": [
    "Bf2.C02_reload_of_export"
   ],
   "note": ""
  },
  {
   "property": "C03",
   "status": "proved",
   "theorems": [
    "Bf2.C03_export_fixpoint"
   ],
   "note": ""
  },
  {
   "property": "C04",
   "status": "proved",
   "theorems": [
    "Bf2.C04_trailing_bytes_rejected"
   ],
   "note": ""
  },
  {
   "property": "C05",
   "status": "proved",
   "theorems": [
    "Bf2.C05_truncation_rejected"
   ],
   "note": ""
  },
  {
   "property": "C06",
   "status": "proved",
   "theorems": [
    "Bf2.C06_counts_agree",
    "Bf2.C06_loaded_wf"
   ],
   "note": ""
  },
  {
   "property": "C07",
   "status": "proved",
   "theorems": [
    "Bf2.C07_integers_in_range"
   ],
   "note": ""
  },
  {
   "property": "C08",
   "status": "proved",
   "theorems": [
    "Bf2.C08_kind_and_version_decide_fields"
   ],
   "note": ""
  },
  {
   "property": "C09",
   "status": "proved",
   "theorems": [
    "Bf2.C09_never_saved",
    "Bf2.C09_one_index_never_exported"
   ],
   "note": ""
  },
  {
   "property": "C10",
   "status": "proved",
   "theorems": [
    "Bf2.C10_one_float_rejected"
   ],
   "note": ""
  },
  {
   "property": "C11",
   "status": "proved",
   "theorems": [
    "Bf2.C11_zero_vertformat_rejected",
    "Bf2.C11_negative_vertices_rejected",
    "Bf2.C11_negative_index_rejected",
    "Bf2.C11_negative_string_rejected"
   ],
   "note": "One theorem per kind of impossible count. Strings: any cut of a mesh file at a string, followed by a negative length and anything."
  },
  {
   "property": "C12",
   "status": "proved",
   "theorems": [
    "Bf2.C12_signalling_nans_quieted",
    "Bf2.C12_example"
   ],
   "note": ""
  },
  {
   "property": "C13",
   "status": "proved",
   "theorems": [
    "Bf2.C13_not_portable",
    "Bf2.C13_sample_not_portable"
   ],
   "note": "An existence claim: proved by a witness evaluated by the kernel, in both directions."
  },
  {
   "property": "C14",
   "status": "proved",
   "theorems": [
    "Bf2.C14_kind_of_extension",
    "Bf2.C14_at_most_one",
    "Bf2.C14_only_extension",
    "Bf2.C14_flags_ignored",
    "Bf2.C14_loaded_kind"
   ],
   "note": ""
  },
  {
   "property": "C15",
   "status": "proved",
   "theorems": [
    "Bf2.C15_other_flags_irrelevant",
    "Bf2.C15_unknown_as_static"
   ],
   "note": ""
  },
  {
   "property": "C16",
   "status": "proved",
   "theorems": [
    "Bf2.C16_no_name"
   ],
   "note": ""
  },
  {
   "property": "C17",
   "status": "proved",
   "theorems": [
    "Bf2.C17_bare_name"
   ],
   "note": ""
  },
  {
   "property": "C18",
   "status": "proved",
   "theorems": [
    "Bf2.C18_one_file",
    "Bf2.C18_reload",
    "Bf2.C18_makes_directories",
    "Bf2.C18_existing_directory"
   ],
   "note": ""
  },
  {
   "property": "C19",
   "status": "proved",
   "theorems": [
    "Bf2.C19_serialisation_raises",
    "Bf2.C19_update_raises",
    "Bf2.C19_other_files_kept"
   ],
   "note": ""
  },
  {
   "property": "C20",
   "status": "proved",
   "theorems": [
    "Bf2.C20_own_name",
    "Bf2.C20_rewrites_source"
   ],
   "note": ""
  },
  {
   "property": "C21",
   "status": "proved",
   "theorems": [
    "Bf2.C21_only_bounds_and_name"
   ],
   "note": ""
  },
  {
   "property": "C22",
   "status": "proved",
   "theorems": [
    "Bf2.C22_translate_moves_positions_only"
   ],
   "note": ""
  },
  {
   "property": "C23",
   "status": "proved",
   "theorems": [
    "Bf2.C23_translate_concatenates",
    "Bf2.C23_wrong_vertices",
    "Bf2.C23_dropped_vertices"
   ],
   "note": "The claim is that data may be misplaced: general description of the result plus witnesses."
  },
  {
   "property": "C24",
   "status": "proved",
   "theorems": [
    "Bf2.C24_translate_atomic",
    "Bf2.C24_unknown_type",
    "Bf2.C24_no_position",
    "Bf2.C24_offset_too_long"
   ],
   "note": ""
  },
  {
   "property": "C25",
   "status": "proved",
   "theorems": [
    "Bf2.C25_translations_compose",
    "Bf2.C25_translations_cancel"
   ],
   "note": ""
  },
  {
   "property": "C26",
   "status": "proved",
   "theorems": [
    "Bf2.C26_rotate_vectors_only",
    "Bf2.C26_one_map_for_all",
    "Bf2.C26_rotate_atomic",
    "Bf2.C26_too_few_angles",
    "Bf2.C26_undefined_angle"
   ],
   "note": ""
  },
  {
   "property": "C27",
   "status": "proved",
   "theorems": [
    "Bf2.C27_special_orthogonal",
    "Bf2.C27_rotation_matrix",
    "Bf2.C27_dot_products_kept",
    "Bf2.C27_zero_rotation"
   ],
   "note": ""
  },
  {
   "property": "C28",
   "status": "proved",
   "theorems": [
    "Bf2.C28_float4_shrinks",
    "Bf2.C28_one_float4",
    "Bf2.C28_stride_mismatch"
   ],
   "note": ""
  },
  {
   "property": "C29",
   "status": "proved",
   "theorems": [
    "Bf2.C29_reorder_keeps_geoms"
   ],
   "note": ""
  },
  {
   "property": "C30",
   "status": "proved",
   "theorems": [
    "Bf2.C30_reorder_tiles",
    "Bf2.C30_lengths_kept"
   ],
   "note": ""
  },
  {
   "property": "C31",
   "status": "proved",
   "theorems": [
    "Bf2.C31_wrong_length"
   ],
   "note": ""
  },
  {
   "property": "C32",
   "status": "proved",
   "theorems": [
    "Bf2.C32_identity",
    "Bf2.C32_inverse"
   ],
   "note": ""
  },
  {
   "property": "C33",
   "status": "proved",
   "theorems": [
    "Bf2.C33_out_of_range_raises",
    "Bf2.C33_out_of_range_corrupts",
    "Bf2.C33_duplicate_corrupts"
   ],
   "note": "'May' claims proved by witnesses; the IndexError and success parts hold for all inputs."
  },
  {
   "property": "C34",
   "status": "proved",
   "theorems": [
    "Bf2.C34_refused_silently",
    "Bf2.C34_incompatible_untouched"
   ],
   "note": ""
  },
  {
   "property": "C35",
   "status": "proved",
   "theorems": [
    "Bf2.C35_merge_concatenates",
    "Bf2.C35_merge_succeeds"
   ],
   "note": ""
  },
  {
   "property": "C36",
   "status": "proved",
   "theorems": [
    "Bf2.C36_corners_preserved"
   ],
   "note": ""
  },
  {
   "property": "C37",
   "status": "proved",
   "theorems": [
    "Bf2.C37_overflow_exactly",
    "Bf2.C37_indices_fit"
   ],
   "note": ""
  },
  {
   "property": "C38",
   "status": "proved",
   "theorems": [
    "Bf2.C38_counts_and_tiling"
   ],
   "note": ""
  },
  {
   "property": "C39",
   "status": "proved",
   "theorems": [
    "Bf2.C39_not_rolled_back"
   ],
   "note": "Existence claim, proved by a witness."
  },
  {
   "property": "C40",
   "status": "proved",
   "theorems": [
    "Bf2.C40_true_iff_compatible",
    "Bf2.C40_false_sound",
    "Bf2.C40_reflexive",
    "Bf2.C40_symmetric",
    "Bf2.C40_transitive"
   ],
   "note": "canMerge returning a value only (no mesh) is how the model expresses that it changes nothing."
  },
  {
   "property": "C41",
   "status": "proved",
   "theorems": [
    "Bf2.C41_alphamode_type_error",
    "Bf2.C41_other_direction_false",
    "Bf2.C41_attribute_value_error"
   ],
   "note": ""
  },
  {
   "property": "C42",
   "status": "proved",
   "theorems": [
    "Bf2.C42_self_merge"
   ],
   "note": ""
  },
  {
   "property": "C43",
   "status": "proved",
   "theorems": [
    "Bf2.C43_associative"
   ],
   "note": ""
  },
  {
   "property": "C44",
   "status": "proved",
   "theorems": [
    "Bf2.C44_translate_distributes"
   ],
   "note": ""
  },
  {
   "property": "C45",
   "status": "proved",
   "theorems": [
    "Bf2.C45_bounds_contain",
    "Bf2.C45_update_succeeds",
    "Bf2.C45_every_vertex",
    "Bf2.C45_values_contained"
   ],
   "note": ""
  },
  {
   "property": "C46",
   "status": "proved",
   "theorems": [
    "Bf2.C46_bounds_tight",
    "Bf2.C46_origin_inside",
    "Bf2.C46_smallest_box"
   ],
   "note": ""
  },
  {
   "property": "C47",
   "status": "proved",
   "theorems": [
    "Bf2.C47_bounds_zeroed",
    "Bf2.C47_update_succeeds"
   ],
   "note": ""
  },
  {
   "property": "C48",
   "status": "proved",
   "theorems": [
    "Bf2.C48_idempotent",
    "Bf2.C48_local"
   ],
   "note": ""
  },
  {
   "property": "C49",
   "status": "proved",
   "theorems": [
    "Bf2.C49_center",
    "Bf2.C49_center_updated",
    "Bf2.C49_place_kept",
    "Bf2.C49_update_raises",
    "Bf2.C49_missing",
    "Bf2.C49_midpoint_real",
    "Bf2.C49_midpoint_overflows"
   ],
   "note": ""
  },
  {
   "property": "C50",
   "status": "proved",
   "theorems": [
    "Bf2.C50_history_keeps_order",
    "Bf2.C50_export_reloads",
    "Bf2.C50_export_succeeds_iff"
   ],
   "note": ""
  },
  {
   "property": "C51",
   "status": "proved",
   "theorems": [
    "Bf2.C51_word_survives",
    "Bf2.C51_rounding_idempotent",
    "Bf2.C51_read_exact",
    "Bf2.C51_write_nearest",
    "Bf2.C51_ties_to_even",
    "Bf2.C51_overflow_to_infinity",
    "Bf2.C51_sign_kept"
   ],
   "note": ""
  },
  {
   "property": "C52",
   "status": "proved",
   "theorems": [
    "Bf2.C52_vertex_float_count"
   ],
   "note": ""
  },
  {
   "property": "C53",
   "status": "proved",
   "theorems": [
    "Bf2.C53_material_equal",
    "Bf2.C53_ignores_mmax",
    "Bf2.C53_differing_mmax_equal",
    "Bf2.C53_material_raises"
   ],
   "note": ""
  },
  {
   "property": "C54",
   "status": "proved",
   "theorems": [
    "Bf2.C54_lod_equal",
    "Bf2.C54_lod_different",
    "Bf2.C54_old_and_new_raise",
    "Bf2.C54_needs_counts"
   ],
   "note": ""
  },
  {
   "property": "C55",
   "status": "proved",
   "theorems": [
    "Bf2.C55_geom_equal",
    "Bf2.C55_geom_equal_wf"
   ],
   "note": ""
  },
  {
   "property": "C56",
   "status": "proved",
   "theorems": [
    "Bf2.C56_head_equal",
    "Bf2.C56_vertattrib_equal"
   ],
   "note": ""
  },
  {
   "property": "C57",
   "status": "proved",
   "theorems": [
    "Bf2.C57_round_trip_equal",
    "Bf2.C57_loaded_round_trip_equal",
    "Bf2.C57_nan_never_equal",
    "Bf2.C57_zeros_equal"
   ],
   "note": ""
  },
  {
   "property": "C58",
   "status": "proved",
   "theorems": [
    "Bf2.C58_loads_iff_layout",
    "Bf2.C58_python_floats",
    "Bf2.C58_export_writes_layout",
    "Bf2.C58_layout_injective"
   ],
   "note": ""
  },
  {
   "property": "C59",
   "status": "proved",
   "theorems": [
    "Bf2.C59_loads_iff_layout",
    "Bf2.C59_content_unique",
    "Bf2.C59_loaded_wf",
    "Bf2.C59_construct"
   ],
   "note": ""
  },
  {
   "property": "C60",
   "status": "proved",
   "theorems": [
    "Bf2.C60_truncation_rejected",
    "Bf2.C60_unknown_coltype_rejected"
   ],
   "note": ""
  },
  {
   "property": "C61",
   "status": "proved",
   "theorems": [
    "Bf2.C61_save_writes_layout",
    "Bf2.C61_reload_of_save"
   ],
   "note": ""
  },
  {
   "property": "C62",
   "status": "proved",
   "theorems": [
    "Bf2.C62_load_save",
    "Bf2.C62_identical_iff"
   ],
   "note": ""
  },
  {
   "property": "C63",
   "status": "proved",
   "theorems": [
    "Bf2.C63_bare_name",
    "Bf2.C63_one_file",
    "Bf2.C63_failed_save_truncates"
   ],
   "note": ""
  },
  {
   "property": "C64",
   "status": "proved",
   "theorems": [
    "Bf2.C64_translate",
    "Bf2.C64_translate_composes",
    "Bf2.C64_bounds_stale"
   ],
   "note": ""
  },
  {
   "property": "C65",
   "status": "proved",
   "theorems": [
    "Bf2.C65_merge",
    "Bf2.C65_face_objects",
    "Bf2.C65_faces_seen",
    "Bf2.C65_counts_kept"
   ],
   "note": ""
  },
  {
   "property": "C66",
   "status": "proved",
   "theorems": [
    "Bf2.C66_equal_counts",
    "Bf2.C66_unequal_counts"
   ],
   "note": ""
  },
  {
   "property": "C67",
   "status": "proved",
   "theorems": [
    "Bf2.C67_other_broken",
    "Bf2.C67_second_merge_moves_again"
   ],
   "note": ""
  },
  {
   "property": "C68",
   "status": "proved",
   "theorems": [
    "Bf2.C68_index_error"
   ],
   "note": ""
  },
  {
   "property": "C69",
   "status": "proved",
   "theorems": [
    "Bf2.C69_self_merge_never_ends"
   ],
   "note": ""
  },
  {
   "property": "C70",
   "status": "proved",
   "theorems": [
    "Bf2.C70_lod_equal",
    "Bf2.C70_geom_equal",
    "Bf2.C70_subgeom_equal",
    "Bf2.C70_lod_raises",
    "Bf2.C70_loaded_never_raises",
    "Bf2.C70_round_trip"
   ],
   "note": ""
  },
  {
   "property": "C71",
   "status": "proved",
   "theorems": [
    "Bf2.C71_translate_rounds",
    "Bf2.C71_translate_exact"
   ],
   "note": ""
  },
  {
   "property": "C72",
   "status": "proved",
   "theorems": [
    "Bf2.C72_minus_zero",
    "Bf2.C72_plus_zero"
   ],
   "note": ""
  },
  {
   "property": "C73",
   "status": "proved",
   "theorems": [
    "Bf2.C73_back_if_exact",
    "Bf2.C73_back_differs"
   ],
   "note": ""
  },
  {
   "property": "C74",
   "status": "proved",
   "theorems": [
    "Bf2.C74_cross_right_iff",
    "Bf2.C74_cross_laws_fail"
   ],
   "note": ""
  },
  {
   "property": "C75",
   "status": "proved",
   "theorems": [
    "Bf2.C75_add_sub_rounded",
    "Bf2.C75_div_raises",
    "Bf2.C75_div_rounded",
    "Bf2.C75_div_scalar"
   ],
   "note": ""
  },
  {
   "property": "C76",
   "status": "proved",
   "theorems": [
    "Bf2.C76_translate_reorder",
    "Bf2.C76_rotate_reorder"
   ],
   "note": ""
  },
  {
   "property": "C77",
   "status": "proved",
   "theorems": [
    "Bf2.C77_translate_merge",
    "Bf2.C77_rotate_merge"
   ],
   "note": ""
  },
  {
   "property": "C78",
   "status": "proved",
   "theorems": [
    "Bf2.C78_orders_compose"
   ],
   "note": ""
  },
  {
   "property": "C79",
   "status": "proved",
   "theorems": [
    "Bf2.C79_reorder_merge"
   ],
   "note": ""
  },
  {
   "property": "C80",
   "status": "proved",
   "theorems": [
    "Bf2.C80_same_corners",
    "Bf2.C80_one_direction_overflows"
   ],
   "note": ""
  },
  {
   "property": "C81",
   "status": "proved",
   "theorems": [
    "Bf2.C81_rotations_compose",
    "Bf2.C81_one_axis",
    "Bf2.C81_undone",
    "Bf2.C81_full_turns",
    "Bf2.C81_negated_angles_do_not_undo"
   ],
   "note": ""
  },
  {
   "property": "C82",
   "status": "proved",
   "theorems": [
    "Bf2.C82_rotate_after_translate"
   ],
   "note": ""
  },
  {
   "property": "C83",
   "status": "proved",
   "theorems": [
    "Bf2.C83_loads_the_same",
    "Bf2.C83_first_lod_without_material",
    "Bf2.C83_loads_only"
   ],
   "note": ""
  },
  {
   "property": "C84",
   "status": "proved",
   "theorems": [
    "Bf2.C84_save_unmodified",
    "Bf2.C84_identical_iff"
   ],
   "note": ""
  },
  {
   "property": "C85",
   "status": "proved",
   "theorems": [
    "Bf2.C85_bare_name",
    "Bf2.C85_written"
   ],
   "note": ""
  },
  {
   "property": "C86",
   "status": "proved",
   "theorems": [
    "Bf2.C86_vertices_roundtrip",
    "Bf2.C86_unchanged"
   ],
   "note": ""
  },
  {
   "property": "C87",
   "status": "proved",
   "theorems": [
    "Bf2.C87_translate_tiled",
    "Bf2.C87_same_as_package",
    "Bf2.C87_minus_zero"
   ],
   "note": ""
  },
  {
   "property": "C88",
   "status": "proved",
   "theorems": [
    "Bf2.C88_translate_general"
   ],
   "note": ""
  },
  {
   "property": "C89",
   "status": "proved",
   "theorems": [
    "Bf2.C89_bounds_grow",
    "Bf2.C89_not_recomputed"
   ],
   "note": ""
  },
  {
   "property": "C90",
   "status": "proved",
   "theorems": [
    "Bf2.C90_type_error_after_change",
    "Bf2.C90_loaded_bounds"
   ],
   "note": ""
  },
  {
   "property": "C91",
   "status": "proved",
   "theorems": [
    "Bf2.C91_merge_concatenates"
   ],
   "note": ""
  },
  {
   "property": "C92",
   "status": "proved",
   "theorems": [
    "Bf2.C92_same_as_package",
    "Bf2.C92_no_overflow_check"
   ],
   "note": ""
  },
  {
   "property": "C93",
   "status": "proved",
   "theorems": [
    "Bf2.C93_refused",
    "Bf2.C93_index_error",
    "Bf2.C93_no_bounds",
    "Bf2.C93_surplus_left_out"
   ],
   "note": ""
  },
  {
   "property": "C94",
   "status": "proved",
   "theorems": [
    "Bf2.C94_order_geoms",
    "Bf2.C94_bad_id",
    "Bf2.C94_save_reload",
    "Bf2.C94_short_order",
    "Bf2.C94_then_translate_shuffles"
   ],
   "note": ""
  },
  {
   "property": "C95",
   "status": "proved",
   "theorems": [
    "Bf2.C95_copy_geom",
    "Bf2.C95_save_reload",
    "Bf2.C95_bad_id",
    "Bf2.C95_bad_id_unsavable",
    "Bf2.C95_bad_id_file_lost"
   ],
   "note": ""
  },
  {
   "property": "C96",
   "status": "proved",
   "theorems": [
    "Bf2.C96_delete_geom",
    "Bf2.C96_raises_after_load",
    "Bf2.C96_refused",
    "Bf2.C96_index_tuple",
    "Bf2.C96_negative_id"
   ],
   "note": ""
  },
  {
   "property": "C97",
   "status": "proved",
   "theorems": [
    "Bf2.C97_edit_vertex",
    "Bf2.C97_other_vertices",
    "Bf2.C97_past_end",
    "Bf2.C97_silent",
    "Bf2.C97_tuple",
    "Bf2.C97_unused_entry_edited"
   ],
   "note": ""
  },
  {
   "property": "C98",
   "status": "proved",
   "theorems": [
    "Bf2.C98_rename_texture",
    "Bf2.C98_refused"
   ],
   "note": ""
  },
  {
   "property": "C99",
   "status": "proved",
   "theorems": [
    "Bf2.C99_one_map",
    "Bf2.C99_too_few_angles",
    "Bf2.C99_missing_attribute",
    "Bf2.C99_undefined_angle",
    "Bf2.C99_same_as_package",
    "Bf2.C99_rotation_matrix",
    "Bf2.C99_package_needs_no_tangent"
   ],
   "note": ""
  },
  {
   "property": "C100",
   "status": "proved",
   "theorems": [
    "Bf2.C100_copy_geoms",
    "Bf2.C100_second_spoilt",
    "Bf2.C100_raises_after_load",
    "Bf2.C100_zero"
   ],
   "note": ""
  },
  {
   "property": "C101",
   "status": "proved",
   "theorems": [
    "Bf2.C101_removes_vertex_24",
    "Bf2.C101_materials_kept",
    "Bf2.C101_replaces_24_by_14",
    "Bf2.C101_box"
   ],
   "note": ""
  },
  {
   "property": "C102",
   "status": "proved",
   "theorems": [
    "Bf2.C102_remove_attribute",
    "Bf2.C102_first_attribute",
    "Bf2.C102_no_such_attribute",
    "Bf2.C102_raises_after_load",
    "Bf2.C102_unreadable_entry"
   ],
   "note": ""
  },
  {
   "property": "C103",
   "status": "proved",
   "theorems": [
    "Bf2.C103_save_iff",
    "Bf2.C103_save_reload",
    "Bf2.C103_loaded"
   ],
   "note": ""
  },
  {
   "property": "C104",
   "status": "proved",
   "theorems": [
    "Bf2.C104_history",
    "Bf2.C104_succeeds",
    "Bf2.C104_save_after",
    "Bf2.C104_translate_save_reload",
    "Bf2.C104_rotate_save_reload"
   ],
   "note": ""
  },
  {
   "property": "C105",
   "status": "proved",
   "theorems": [
    "Bf2.C105_box_order",
    "Bf2.C105_box_save_reload",
    "Bf2.C105_box_triangles",
    "Bf2.C105_boxes_do_not_merge",
    "Bf2.C105_colbox_save_reload",
    "Bf2.C105_colbox_faces"
   ],
   "note": ""
  },
  {
   "property": "C106",
   "status": "proved",
   "theorems": [
    "Bf2.C106_kind_of_extension",
    "Bf2.C106_bare_name",
    "Bf2.C106_samples_iff",
    "Bf2.C106_sample_file_raises",
    "Bf2.C106_bad_sample_name"
   ],
   "note": ""
  },
  {
   "property": "C107",
   "status": "proved",
   "theorems": [
    "Bf2.C107_vertattrib_equal",
    "Bf2.C107_material_equal",
    "Bf2.C107_material_stricter",
    "Bf2.C107_lod_equal",
    "Bf2.C107_geom_equal",
    "Bf2.C107_loaded_twice",
    "Bf2.C107_rigs_never_equal"
   ],
   "note": ""
  },
  {
   "property": "C108",
   "status": "proved",
   "theorems": [
    "Bf2.C108_meshes_stay_in_order",
    "Bf2.C108_other_files_kept",
    "Bf2.C108_last_export_loads",
    "Bf2.C108_entering_reads_nothing",
    "Bf2.C108_entering_unloaded"
   ],
   "note": ""
  },
  {
   "property": "C109",
   "status": "proved",
   "theorems": [
    "Bf2.C109_mod_root"
   ],
   "note": ""
  },
  {
   "property": "C110",
   "status": "proved",
   "theorems": [
    "Bf2.C110_root",
    "Bf2.C110_never_simple",
    "Bf2.C110_object_path",
    "Bf2.C110_children",
    "Bf2.C110_load_without_root"
   ],
   "note": ""
  },
  {
   "property": "C111",
   "status": "proved",
   "theorems": [
    "Bf2.C111_settings"
   ],
   "note": ""
  },
  {
   "property": "C112",
   "status": "proved",
   "theorems": [
    "Bf2.C112_reorder_as_written",
    "Bf2.C112_offset_as_written",
    "Bf2.C112_merge_as_written",
    "Bf2.C112_readme_order"
   ],
   "note": ""
  },
  {
   "property": "C113",
   "status": "proved",
   "theorems": [
    "Bf2.C113_offset_program"
   ],
   "note": ""
  },
  {
   "property": "C114",
   "status": "proved",
   "theorems": [
    "Bf2.C114_reorder_program"
   ],
   "note": ""
  },
  {
   "property": "C115",
   "status": "proved",
   "theorems": [
    "Bf2.C115_merge_program"
   ],
   "note": ""
  },
  {
   "property": "C116",
   "status": "proved",
   "theorems": [
    "Bf2.C116_bounds_exact",
    "Bf2.C116_box_unique",
    "Bf2.C116_lod_around_materials",
    "Bf2.C116_merge_bounds",
    "Bf2.C116_reorder_bounds"
   ],
   "note": ""
  },
  {
   "property": "C117",
   "status": "proved",
   "theorems": [
    "Bf2.C117_centring"
   ],
   "note": ""
  },
  {
   "property": "C118",
   "status": "proved",
   "theorems": [
    "Bf2.C118_box_modify",
    "Bf2.C118_prints",
    "Bf2.C118_face_torn"
   ],
   "note": ""
  },
  {
   "property": "C119",
   "status": "proved",
   "theorems": [
    "Bf2.C119_display",
    "Bf2.C119_corner"
   ],
   "note": ""
  },
  {
   "property": "C120",
   "status": "proved",
   "theorems": [
    "Bf2.C120_order_fix",
    "Bf2.C120_few_geoms",
    "Bf2.C120_many_geoms",
    "Bf2.C120_box_new"
   ],
   "note": ""
  },
  {
   "property": "C121",
   "status": "proved",
   "theorems": [
    "Bf2.C121_reload_exact",
    "Bf2.C121_write_tests"
   ],
   "note": ""
  },
  {
   "property": "C122",
   "status": "proved",
   "theorems": [
    "Bf2.C122_translate_test",
    "Bf2.C122_test_passes",
    "Bf2.C122_small_z_fails"
   ],
   "note": ""
  },
  {
   "property": "C123",
   "status": "proved",
   "theorems": [
    "Bf2.C123_merge_test",
    "Bf2.C123_same_file",
    "Bf2.C123_order_test",
    "Bf2.C123_two_materials_fail"
   ],
   "note": ""
  },
  {
   "property": "C124",
   "status": "proved",
   "theorems": [
    "Bf2.C124_raises",
    "Bf2.C124_succeeds_iff",
    "Bf2.C124_numbers",
    "Bf2.C124_one_index"
   ],
   "note": ""
  },
  {
   "property": "C125",
   "status": "proved",
   "theorems": [
    "Bf2.C125_other_kind",
    "Bf2.C125_other_extension"
   ],
   "note": ""
  },
  {
   "property": "C126",
   "status": "proved",
   "theorems": [
    "Bf2.C126_rotate_accurate",
    "Bf2.C126_rotate_length"
   ],
   "note": ""
  },
  {
   "property": "C127",
   "status": "proved",
   "theorems": [
    "Bf2.C127_stored_error",
    "Bf2.C127_rotate_saved"
   ],
   "note": ""
  },
  {
   "property": "C128",
   "status": "proved",
   "theorems": [
    "Bf2.C128_reorder",
    "Bf2.C128_merge",
    "Bf2.C128_translate_differs"
   ],
   "note": ""
  },
  {
   "property": "C129",
   "status": "proved",
   "theorems": [
    "Bf2.C129_as_written",
    "Bf2.C129_meant",
    "Bf2.C129_meant_no_lod",
    "Bf2.C129_faces_follow",
    "Bf2.C129_counts",
    "Bf2.C129_meant_saved",
    "Bf2.C129_centred"
   ],
   "note": ""
  },
  {
   "property": "C130",
   "status": "proved",
   "theorems": [
    "Bf2.C130_yaw_only",
    "Bf2.C130_raises",
    "Bf2.C130_exact",
    "Bf2.C130_right_iff",
    "Bf2.C130_the_run"
   ],
   "note": ""
  },
  {
   "property": "C131",
   "status": "proved",
   "theorems": [
    "Bf2.C131_col_passes_iff",
    "Bf2.C131_col_translate",
    "Bf2.C131_vis_asserts_nothing"
   ],
   "note": ""
  },
  {
   "property": "C132",
   "status": "proved",
   "theorems": [
    "Bf2.C132_joined",
    "Bf2.C132_centred",
    "Bf2.C132_not_centred"
   ],
   "note": ""
  },
  {
   "property": "C133",
   "status": "proved",
   "theorems": [
    "Bf2.C133_save",
    "Bf2.C133_load",
    "Bf2.C133_prefix",
    "Bf2.C133_read_back",
    "Bf2.C133_loaded"
   ],
   "note": ""
  },
  {
   "property": "C134",
   "status": "proved",
   "theorems": [
    "Bf2.C134_loaded",
    "Bf2.C134_call",
    "Bf2.C134_stays_unshared",
    "Bf2.C134_history",
    "Bf2.C134_valid",
    "Bf2.C134_gentle",
    "Bf2.C134_merge_loses"
   ],
   "note": "Model with references beside the model with values; that merge differs is proved by a witness."
  },
  {
   "property": "C135",
   "status": "proved",
   "theorems": [
    "Bf2.C135_tests_show",
    "Bf2.C135_same_but_mmax",
    "Bf2.C135_file_determined",
    "Bf2.C135_blind_to_mmax"
   ],
   "note": "about the assertions of the write tests as modelled in RepoTests; the loader is the model's"
  },
  {
   "property": "C136",
   "status": "proved",
   "theorems": [
    "Bf2.C136_translate",
    "Bf2.C136_exact",
    "Bf2.C136_translate_rounds",
    "Bf2.C136_rounded_twice",
    "Bf2.C136_overflow",
    "Bf2.C136_too_long",
    "Bf2.C136_rotate",
    "Bf2.C136_rotate_short",
    "Bf2.C136_atomic"
   ],
   "note": "digit limit as a parameter; sin, cos and radians of doubles as in the rotate claims"
  },
  {
   "property": "C137",
   "status": "proved",
   "theorems": [
    "Bf2.C137_merge_tells",
    "Bf2.C137_merge_missing",
    "Bf2.C137_merge_blind",
    "Bf2.C137_order_blind",
    "Bf2.C137_order_misses",
    "Bf2.C137_translate_tells",
    "Bf2.C137_translate_blind"
   ],
   "note": "about the assertions of the edit tests as modelled in RepoTests"
  },
  {
   "property": "C138",
   "status": "proved",
   "theorems": [
    "Bf2.C138_second_update",
    "Bf2.C138_saved_box",
    "Bf2.C138_same_bytes_iff",
    "Bf2.C138_third",
    "Bf2.C138_loaded",
    "Bf2.C138_unbounded",
    "Bf2.C138_may_differ"
   ],
   "note": "for meshes of doubles; the update of the bounds must be able to read every position"
  },
  {
   "property": "C139",
   "status": "proved",
   "theorems": [
    "Bf2.C139_no_vertices",
    "Bf2.C139_unknown_attribute",
    "Bf2.C139_no_position",
    "Bf2.C139_short_position",
    "Bf2.C139_unbounded",
    "Bf2.C139_ok_iff"
   ],
   "note": "all errors of update_boundaries for vertices inside the list; C45 and C116 say what it does when it raises nothing"
  },
  {
   "property": "C140",
   "status": "proved",
   "theorems": [
    "Bf2.C140_drift",
    "Bf2.C140_normals",
    "Bf2.C140_there_and_back",
    "Bf2.C140_turned_back"
   ],
   "note": "any number of edits; C126, C127 and C113 are about one edit. The error of the C library's cosines and sines is a parameter"
  },
  {
   "property": "C141",
   "status": "proved",
   "theorems": [
    "Bf2.C141_zero_division",
    "Bf2.C141_type",
    "Bf2.C141_attribute",
    "Bf2.C141_struct",
    "Bf2.C141_append",
    "Bf2.C141_construct"
   ],
   "note": "the converse of C04, C10 and C11; memory exhaustion for huge counts is not modelled"
  },
  {
   "property": "C142",
   "status": "proved",
   "theorems": [
    "Bf2.C142_translate_errors",
    "Bf2.C142_no_floats",
    "Bf2.C142_translate_zero_format",
    "Bf2.C142_translate_ok_iff",
    "Bf2.C142_rotate_errors",
    "Bf2.C142_rotate_ok_iff",
    "Bf2.C142_fits_iff",
    "Bf2.C142_rotate_first_bad"
   ],
   "note": "completes C24 and C26, which name single causes"
  },
  {
   "property": "C143",
   "status": "proved",
   "theorems": [
    "Bf2.C143_wrong_number",
    "Bf2.C143_unknown_type",
    "Bf2.C143_raises_iff",
    "Bf2.C143_ok_iff",
    "Bf2.C143_left_behind",
    "Bf2.C143_geoms_listed"
   ],
   "note": "completes C31 and C33, which name single causes"
  },
  {
   "property": "C144",
   "status": "proved",
   "theorems": [
    "Bf2.C144_errors",
    "Bf2.C144_raises_iff",
    "Bf2.C144_not_loadable",
    "Bf2.C144_loads_iff",
    "Bf2.C144_after_history",
    "Bf2.C144_needs_counts"
   ],
   "note": "the hypothesis that counts agree holds for every loaded mesh (C06) and after edits of a mesh in good order (C50); C144_needs_counts shows that it is needed"
  },
  {
   "property": "C145",
   "status": "proved",
   "theorems": [
    "Bf2.C145_kept",
    "Bf2.C145_in_place",
    "Bf2.C145_amounts",
    "Bf2.C145_places",
    "Bf2.C145_boxes",
    "Bf2.C145_vertices",
    "Bf2.C145_names"
   ],
   "note": "in the model with references, so for every sequence of calls"
  },
  {
   "property": "C146",
   "status": "proved",
   "theorems": [
    "Bf2.C146_session",
    "Bf2.C146_attained"
   ],
   "note": "the table is EditCall.mayRaise; C146_attained shows that no entry is superfluous"
  },
  {
   "property": "C147",
   "status": "proved",
   "theorems": [
    "Bf2.C147_head",
    "Bf2.C147_head_eq",
    "Bf2.C147_attr_raises",
    "Bf2.C147_attr",
    "Bf2.C147_attr_eq",
    "Bf2.C147_old_attr",
    "Bf2.C147_face",
    "Bf2.C147_face_eq",
    "Bf2.C147_message",
    "Bf2.C147_message_same",
    "Bf2.C147_mesh",
    "Bf2.C147_with"
   ],
   "note": "ints of more than 4300 digits, which newer Pythons refuse to print, are not modelled"
  },
  {
   "property": "C148",
   "status": "proved",
   "theorems": [
    "Bf2.C148_same",
    "Bf2.C148_loaded",
    "Bf2.C148_limit",
    "Bf2.C148_cut",
    "Bf2.C148_bomb"
   ],
   "note": "objects of the package's own classes; a real interpreter may run out of memory first"
  },
  {
   "property": "C149",
   "status": "proved",
   "theorems": [
    "Bf2.C149_errors",
    "Bf2.C149_not_loadable",
    "Bf2.C149_raises_iff",
    "Bf2.C149_loads_iff",
    "Bf2.C149_merge_too_large",
    "Bf2.C149_needs_counts"
   ],
   "note": ""
  },
  {
   "property": "C150",
   "status": "proved",
   "theorems": [
    "Bf2.C150_single_iff",
    "Bf2.C150_loaded",
    "Bf2.C150_translate",
    "Bf2.C150_file",
    "Bf2.C150_needs_single"
   ],
   "note": ""
  },
  {
   "property": "C151",
   "status": "proved",
   "theorems": [
    "Bf2.C151_loaded",
    "Bf2.C151_saved",
    "Bf2.C151_kept",
    "Bf2.C151_merged",
    "Bf2.C151_edited",
    "Bf2.C151_not_shorter"
   ],
   "note": ""
  },
  {
   "property": "C152",
   "status": "proved",
   "theorems": [
    "Bf2.C152_errors",
    "Bf2.C152_raises_iff",
    "Bf2.C152_not_loadable",
    "Bf2.C152_loads_iff",
    "Bf2.C152_after_history",
    "Bf2.C152_merge_too_large",
    "Bf2.C152_needs_counts"
   ],
   "note": ""
  },
  {
   "property": "C153",
   "status": "proved",
   "theorems": [
    "Bf2.C153_kept",
    "Bf2.C153_unchanged",
    "Bf2.C153_export",
    "Bf2.C153_not_finite",
    "Bf2.C153_sign_lost"
   ],
   "note": ""
  },
  {
   "property": "C154",
   "status": "proved",
   "theorems": [
    "Bf2.C154_printed",
    "Bf2.C154_raises",
    "Bf2.C154_own_wings_ignored",
    "Bf2.C154_negative_whole",
    "Bf2.C154_jet",
    "Bf2.C154_jet_fails"
   ],
   "note": ""
  },
  {
   "property": "C155",
   "status": "proved",
   "theorems": [
    "Bf2.C155_shows",
    "Bf2.C155_missing",
    "Bf2.C155_faithful",
    "Bf2.C155_same_lines",
    "Bf2.C155_program"
   ],
   "note": ""
  },
  {
   "property": "C156",
   "status": "proved",
   "theorems": [
    "Bf2.C156_succeeds_exactly",
    "Bf2.C156_stacked",
    "Bf2.C156_tiled",
    "Bf2.C156_corners",
    "Bf2.C156_copies",
    "Bf2.C156_copies_last",
    "Bf2.C156_skips",
    "Bf2.C156_raises"
   ],
   "note": ""
  },
  {
   "property": "C157",
   "status": "proved",
   "theorems": [
    "Bf2.C157_sample",
    "Bf2.C157_face",
    "Bf2.C157_second_record"
   ],
   "note": ""
  },
  {
   "property": "C158",
   "status": "proved",
   "theorems": [
    "Bf2.C158_translate",
    "Bf2.C158_translate_bounds",
    "Bf2.C158_translate_file",
    "Bf2.C158_rotate",
    "Bf2.C158_bounds"
   ],
   "note": ""
  },
  {
   "property": "C159",
   "status": "proved",
   "theorems": [
    "Bf2.C159_header",
    "Bf2.C159_geom_table",
    "Bf2.C159_nodes",
    "Bf2.C159_others",
    "Bf2.C159_assert_nothing",
    "Bf2.C159_identical"
   ],
   "note": ""
  },
  {
   "property": "C160",
   "status": "proved",
   "theorems": [
    "Bf2.C160_serialize",
    "Bf2.C160_serialize_unused",
    "Bf2.C160_all",
    "Bf2.C160_materials",
    "Bf2.C160_materials_only_if",
    "Bf2.C160_box"
   ],
   "note": ""
  },
  {
   "property": "C161",
   "status": "proved",
   "theorems": [
    "Bf2.C161_order",
    "Bf2.C161_copy",
    "Bf2.C161_delete",
    "Bf2.C161_other_kinds"
   ],
   "note": ""
  },
  {
   "property": "C162",
   "status": "proved",
   "theorems": [
    "Bf2.C162_part",
    "Bf2.C162_old_append",
    "Bf2.C162_col_append",
    "Bf2.C162_old_part",
    "Bf2.C162_export",
    "Bf2.C162_export_construct",
    "Bf2.C162_old_save",
    "Bf2.C162_old_save_struct",
    "Bf2.C162_col_save",
    "Bf2.C162_col_construct"
   ],
   "note": ""
  },
  {
   "property": "C163",
   "status": "proved",
   "theorems": [
    "Bf2.C163_slashed",
    "Bf2.C163_either_separator",
    "Bf2.C163_no_backslash",
    "Bf2.C163_hidden",
    "Bf2.C163_differ_iff"
   ],
   "note": ""
  },
  {
   "property": "C164",
   "status": "proved",
   "theorems": [
    "Bf2.C164_unloaded",
    "Bf2.C164_header",
    "Bf2.C164_geoms",
    "Bf2.C164_mock",
    "Bf2.C164_merge"
   ],
   "note": ""
  },
  {
   "property": "C165",
   "status": "proved",
   "theorems": [
    "Bf2.C165_value",
    "Bf2.C165_struct",
    "Bf2.C165_short",
    "Bf2.C165_construct"
   ],
   "note": ""
  },
  {
   "property": "C166",
   "status": "proved",
   "theorems": [
    "Bf2.C166_zero_division",
    "Bf2.C166_unbound",
    "Bf2.C166_struct",
    "Bf2.C166_package",
    "Bf2.C166_append",
    "Bf2.C166_path"
   ],
   "note": ""
  },
  {
   "property": "C167",
   "status": "proved",
   "theorems": [
    "Bf2.C167_saved",
    "Bf2.C167_loaded",
    "Bf2.C167_resaved",
    "Bf2.C167_translate",
    "Bf2.C167_merge",
    "Bf2.C167_merged_file"
   ],
   "note": ""
  },
  {
   "property": "C168",
   "status": "proved",
   "theorems": [
    "Bf2.C168_passes",
    "Bf2.C168_raises",
    "Bf2.C168_unloaded",
    "Bf2.C168_box",
    "Bf2.C168_blind",
    "Bf2.C168_load",
    "Bf2.C168_samples",
    "Bf2.C168_collision"
   ],
   "note": ""
  },
  {
   "property": "C169",
   "status": "proved",
   "theorems": [
    "Bf2.C169_translate",
    "Bf2.C169_first_three",
    "Bf2.C169_rounds",
    "Bf2.C169_overflow",
    "Bf2.C169_rotate",
    "Bf2.C169_rotate_short",
    "Bf2.C169_collision"
   ],
   "note": ""
  },
  {
   "property": "C170",
   "status": "proved",
   "theorems": [
    "Bf2.C170_chain",
    "Bf2.C170_equal_counts",
    "Bf2.C170_face_objects",
    "Bf2.C170_twice",
    "Bf2.C170_raises",
    "Bf2.C170_stops",
    "Bf2.C170_counts"
   ],
   "note": ""
  },
  {
   "property": "C171",
   "status": "proved",
   "theorems": [
    "Bf2.C171_same",
    "Bf2.C171_no_errors",
    "Bf2.C171_saves",
    "Bf2.C171_files"
   ],
   "note": ""
  },
  {
   "property": "C172",
   "status": "proved",
   "theorems": [
    "Bf2.C172_saved",
    "Bf2.C172_any_save",
    "Bf2.C172_loaded",
    "Bf2.C172_translate",
    "Bf2.C172_rotate",
    "Bf2.C172_merge",
    "Bf2.C172_edit_vertex",
    "Bf2.C172_rename",
    "Bf2.C172_copy",
    "Bf2.C172_order",
    "Bf2.C172_delete"
   ],
   "note": ""
  },
  {
   "property": "C173",
   "status": "proved",
   "theorems": [
    "Bf2.C173_drift",
    "Bf2.C173_normals",
    "Bf2.C173_saved",
    "Bf2.C173_no_turn"
   ],
   "note": ""
  },
  {
   "property": "C174",
   "status": "proved",
   "theorems": [
    "Bf2.C174_succeeds",
    "Bf2.C174_stacked",
    "Bf2.C174_corners",
    "Bf2.C174_save_iff",
    "Bf2.C174_stops",
    "Bf2.C174_raises",
    "Bf2.C174_size"
   ],
   "note": ""
  },
  {
   "property": "C175",
   "status": "proved",
   "theorems": [
    "Bf2.C175_translate",
    "Bf2.C175_rotate",
    "Bf2.C175_bounds",
    "Bf2.C175_edit_vertex",
    "Bf2.C175_rename"
   ],
   "note": ""
  },
  {
   "property": "C176",
   "status": "proved",
   "theorems": [
    "Bf2.C176_unnoticed_iff",
    "Bf2.C176_items",
    "Bf2.C176_vertices",
    "Bf2.C176_deprecated"
   ],
   "note": ""
  },
  {
   "property": "C177",
   "status": "proved",
   "theorems": [
    "Bf2.C177_unnoticed_iff",
    "Bf2.C177_items"
   ],
   "note": ""
  },
  {
   "property": "C178",
   "status": "proved",
   "theorems": [
    "Bf2.C178_bare_iff",
    "Bf2.C178_under",
    "Bf2.C178_drive",
    "Bf2.C178_network",
    "Bf2.C178_as_posix",
    "Bf2.C178_differ",
    "Bf2.C178_export"
   ],
   "note": ""
  },
  {
   "property": "C179",
   "status": "proved",
   "theorems": [
    "Bf2.C179_moved",
    "Bf2.C179_moved_count",
    "Bf2.C179_resaved",
    "Bf2.C179_loaded_moved",
    "Bf2.C179_lost_count"
   ],
   "note": ""
  },
  {
   "property": "C180",
   "status": "proved",
   "theorems": [
    "Bf2.C180_rounds",
    "Bf2.C180_file",
    "Bf2.C180_drift",
    "Bf2.C180_aligned"
   ],
   "note": ""
  },
  {
   "property": "C181",
   "status": "proved",
   "theorems": [
    "Bf2.C181_moved",
    "Bf2.C181_untold"
   ],
   "note": ""
  },
  {
   "property": "C182",
   "status": "proved",
   "theorems": [
    "Bf2.C182_deprecated",
    "Bf2.C182_order",
    "Bf2.C182_col",
    "Bf2.C182_gap_visible",
    "Bf2.C182_gap",
    "Bf2.C182_collapse"
   ],
   "note": ""
  },
  {
   "property": "C183",
   "status": "proved",
   "theorems": [
    "Bf2.C183_distance",
    "Bf2.C183_angle",
    "Bf2.C183_deprecated",
    "Bf2.C183_col"
   ],
   "note": ""
  },
  {
   "property": "C184",
   "status": "proved",
   "theorems": [
    "Bf2.C184_undone",
    "Bf2.C184_deprecated",
    "Bf2.C184_col"
   ],
   "note": ""
  },
  {
   "property": "C185",
   "status": "proved",
   "theorems": [
    "Bf2.C185_side",
    "Bf2.C185_volume",
    "Bf2.C185_deprecated"
   ],
   "note": ""
  },
  {
   "property": "C186",
   "status": "proved",
   "theorems": [
    "Bf2.C186_bounds",
    "Bf2.C186_radius",
    "Bf2.C186_undone"
   ],
   "note": ""
  },
  {
   "property": "C187",
   "status": "proved",
   "theorems": [
    "Bf2.C187_centring",
    "Bf2.C187_around",
    "Bf2.C187_aside"
   ],
   "note": ""
  },
  {
   "property": "C188",
   "status": "proved",
   "theorems": [
    "Bf2.C188_rounds",
    "Bf2.C188_succeeds",
    "Bf2.C188_flat"
   ],
   "note": ""
  },
  {
   "property": "C189",
   "status": "proved",
   "theorems": [
    "Bf2.C189_yaw",
    "Bf2.C189_pitch",
    "Bf2.C189_roll",
    "Bf2.C189_zero_spoiled"
   ],
   "note": ""
  },
  {
   "property": "C190",
   "status": "proved",
   "theorems": [
    "Bf2.C190_spun",
    "Bf2.C190_four",
    "Bf2.C190_deprecated",
    "Bf2.C190_quarter",
    "Bf2.C190_not_level"
   ],
   "note": ""
  },
  {
   "property": "C191",
   "status": "proved",
   "theorems": [
    "Bf2.C191_yaw",
    "Bf2.C191_pitch",
    "Bf2.C191_roll",
    "Bf2.C191_twice",
    "Bf2.C191_two_quarters"
   ],
   "note": ""
  },
  {
   "property": "C192",
   "status": "proved",
   "theorems": [
    "Bf2.C192_exact",
    "Bf2.C192_right_angles"
   ],
   "note": ""
  },
  {
   "property": "C193",
   "status": "proved",
   "theorems": [
    "Bf2.C193_exact",
    "Bf2.C193_there_and_back"
   ],
   "note": ""
  },
  {
   "property": "C194",
   "status": "proved",
   "theorems": [
    "Bf2.C194_exact",
    "Bf2.C194_there_and_back"
   ],
   "note": ""
  },
  {
   "property": "C195",
   "status": "proved",
   "theorems": [
    "Bf2.C195_moves",
    "Bf2.C195_saved"
   ],
   "note": ""
  }
 ]
}