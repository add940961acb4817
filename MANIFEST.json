{
 "claims": [
  {
   "property": "C01",
   "status": "proved",
   "theorems": [
    "Fm2prof.Props.C01_accepted_iff",
    "Fm2prof.Props.C01_kept_levels_increase",
    "Fm2prof.Props.C01_rejected_is_below_accepted"
   ],
   "note": ""
  },
  {
   "property": "C02",
   "status": "proved",
   "theorems": [
    "Fm2prof.Props.C02_built_levels",
    "Fm2prof.Props.C02_C03_pipeline_valid",
    "Fm2prof.Props.C02_C03_C14_pipeline_nonempty",
    "Fm2prof.Props.C02_C03_exported_profile_valid"
   ],
   "note": ""
  },
  {
   "property": "C03",
   "status": "proved",
   "theorems": [
    "Fm2prof.Props.C02_C03_pipeline_valid",
    "Fm2prof.Props.C02_C03_C14_pipeline_nonempty",
    "Fm2prof.Props.C03_requirements_give_valid_profile",
    "Fm2prof.Props.C03_requirements_fail_iff",
    "Fm2prof.Props.C02_C03_exported_profile_valid"
   ],
   "note": ""
  },
  {
   "property": "C04",
   "status": "proved",
   "theorems": [
    "Fm2prof.Props.C04_increasing_and_never_lowers",
    "Fm2prof.Props.C04_identity_on_increasing",
    "Fm2prof.Props.C04_idempotent",
    "Fm2prof.Props.C04_least",
    "Fm2prof.Props.C04_bounded"
   ],
   "note": ""
  },
  {
   "property": "C05",
   "status": "proved",
   "theorems": [
    "Fm2prof.Props.C05_built",
    "Fm2prof.Props.C05_nondecreasing_minorant",
    "Fm2prof.Props.C05_greatest"
   ],
   "note": ""
  },
  {
   "property": "C06",
   "status": "proved",
   "theorems": [
    "Fm2prof.Props.C06_points_below_first_level",
    "Fm2prof.Props.C06_widths_below_first_level"
   ],
   "note": ""
  },
  {
   "property": "C07",
   "status": "proved",
   "theorems": [
    "Fm2prof.Props.C07_used_maps",
    "Fm2prof.Props.C07_arrays_aligned"
   ],
   "note": ""
  },
  {
   "property": "C08",
   "status": "proved",
   "theorems": [
    "Fm2prof.Props.C08_built",
    "Fm2prof.Props.C08_volume_is_area_times_length",
    "Fm2prof.Props.C08_starts_at_zero_and_grows",
    "Fm2prof.Props.C08_flow_le_total"
   ],
   "note": ""
  },
  {
   "property": "C09",
   "status": "proved",
   "theorems": [
    "Fm2prof.Props.C09_lake_iff",
    "Fm2prof.Props.C09_counts_iff",
    "Fm2prof.Props.C09_counts_from_then_on",
    "Fm2prof.Props.C09_depth_correction"
   ],
   "note": ""
  },
  {
   "property": "C10",
   "status": "partial",
   "theorems": [
    "Fm2prof.Props.C10_default_method_partial",
    "Fm2prof.Props.C10_default_method_missing",
    "Fm2prof.Props.C10_legacy_method",
    "Fm2prof.Props.C10_dry_never_conveys",
    "Fm2prof.Props.C10_thresholds_monotone",
    "Fm2prof.Props.C10_missing_velocity_violated"
   ],
   "note": "Proved for maps without missing velocities and for the legacy method; with missing velocities the three-largest rule is violated (witness), and the exact rule that holds instead is C10_default_method_missing."
  },
  {
   "property": "C11",
   "status": "proved",
   "theorems": [
    "Fm2prof.Props.C11_volumes_physical",
    "Fm2prof.Props.C11_unknown_method",
    "Fm2prof.Props.C11_fitted_values_kept",
    "Fm2prof.Props.C11_exported_areas"
   ],
   "note": ""
  },
  {
   "property": "C12",
   "status": "proved",
   "theorems": [
    "Fm2prof.Props.C12_between_zero_and_one",
    "Fm2prof.Props.C12_strictly_increasing",
    "Fm2prof.Props.C12_half_in_the_middle",
    "Fm2prof.Props.C12_at_most_below_crest",
    "Fm2prof.Props.C12_at_least_above_top",
    "Fm2prof.Props.C12_odds",
    "Fm2prof.Props.C12_corrected_volumes"
   ],
   "note": ""
  },
  {
   "property": "C13",
   "status": "proved",
   "theorems": [
    "Fm2prof.Props.C13_failure_changes_nothing",
    "Fm2prof.Props.C13_success_applies_one_result",
    "Fm2prof.Props.C13_switched_off",
    "Fm2prof.Props.C13_switched_on",
    "Fm2prof.Props.C13_fails_iff",
    "Fm2prof.Props.C13_initial_values"
   ],
   "note": ""
  },
  {
   "property": "C14",
   "status": "proved",
   "theorems": [
    "Fm2prof.Props.C02_C03_C14_pipeline_nonempty",
    "Fm2prof.Props.C14_sub_profile",
    "Fm2prof.Props.C14_unchanged",
    "Fm2prof.Props.C14_at_most",
    "Fm2prof.Props.C14_endpoints_kept",
    "Fm2prof.Props.C14_single_point_empties"
   ],
   "note": ""
  },
  {
   "property": "C15",
   "status": "proved",
   "theorems": [
    "Fm2prof.Props.C15_exact",
    "Fm2prof.Props.C15_nested",
    "Fm2prof.Props.C15_kept_more_important",
    "Fm2prof.Props.C15_ties_drop_more"
   ],
   "note": ""
  },
  {
   "property": "C16",
   "status": "proved",
   "theorems": [
    "Fm2prof.Props.C16_terminates_and_eliminates",
    "Fm2prof.Props.C16_short_lines"
   ],
   "note": ""
  },
  {
   "property": "C17",
   "status": "proved",
   "theorems": [
    "Fm2prof.Props.C17_sections_cover",
    "Fm2prof.Props.C17_sum",
    "Fm2prof.Props.C17_moves_no_more_than_needed",
    "Fm2prof.Props.C17_defined_iff"
   ],
   "note": ""
  },
  {
   "property": "C18",
   "status": "partial",
   "theorems": [
    "Fm2prof.Props.C18_negative_width_violated",
    "Fm2prof.Props.C18_nonnegative_partial"
   ],
   "note": "Violated: the first flood plain's width can become negative (witness). Holds when the main section covers the bottom width."
  },
  {
   "property": "C19",
   "status": "partial",
   "theorems": [
    "Fm2prof.Props.C19_areas_partial",
    "Fm2prof.Props.C19_named_labels_ignored",
    "Fm2prof.Props.C19_named_labels_violated"
   ],
   "note": "Violated for named sections: the code compares with the numbers 1, 2, 3, so named labels are ignored (witness). Holds for numbered labels."
  },
  {
   "property": "C20",
   "status": "partial",
   "theorems": [
    "Fm2prof.Props.C20_below_crest",
    "Fm2prof.Props.C20_value_partial",
    "Fm2prof.Props.C20_named_labels_violated",
    "Fm2prof.Props.C20_unknown_beds_violated"
   ],
   "note": "Violated for named sections and when all flood plain beds are unknown (witnesses). Holds for numbered labels with known beds."
  },
  {
   "property": "C21",
   "status": "proved",
   "theorems": [
    "Fm2prof.Props.C21_relative_squared_error",
    "Fm2prof.Props.C21_nonnegative",
    "Fm2prof.Props.C21_zero_iff"
   ],
   "note": ""
  },
  {
   "property": "C22",
   "status": "proved",
   "theorems": [
    "Fm2prof.Props.C22_table_of_means",
    "Fm2prof.Props.C22_defined_iff",
    "Fm2prof.Props.C22_between",
    "Fm2prof.Props.C22_order_independent"
   ],
   "note": ""
  },
  {
   "property": "C23",
   "status": "partial",
   "theorems": [
    "Fm2prof.Props.C23_weighted_mean_partial",
    "Fm2prof.Props.C23_between_partial",
    "Fm2prof.Props.C23_dry_link_violated",
    "Fm2prof.Props.C23_always_fails_violated"
   ],
   "note": "Violated: the areas are never among the data, so area weighing always fails; and one dry link makes the result zero. The weighted mean holds for known areas and wet links."
  },
  {
   "property": "C24",
   "status": "proved",
   "theorems": [
    "Fm2prof.Props.C24_interpolation",
    "Fm2prof.Props.C24_own_levels",
    "Fm2prof.Props.C24_between",
    "Fm2prof.Props.C24_determined"
   ],
   "note": ""
  },
  {
   "property": "C25",
   "status": "proved",
   "theorems": [
    "Fm2prof.Props.C25_uniform_levels",
    "Fm2prof.Props.C25_identical_levels",
    "Fm2prof.Props.C25_last_step",
    "Fm2prof.Props.C25_success_reported_rightly"
   ],
   "note": ""
  },
  {
   "property": "C26",
   "status": "proved",
   "theorems": [
    "Fm2prof.Props.C26_branches",
    "Fm2prof.Props.C26_levels",
    "Fm2prof.Props.C26_definitions",
    "Fm2prof.Props.C26_rectangular"
   ],
   "note": ""
  },
  {
   "property": "C27",
   "status": "proved",
   "theorems": [
    "Fm2prof.Props.C27_nearest",
    "Fm2prof.Props.C27_defined_iff"
   ],
   "note": ""
  },
  {
   "property": "C28",
   "status": "partial",
   "theorems": [
    "Fm2prof.Props.C28_faces_in_regions",
    "Fm2prof.Props.C28_edges_in_regions_partial",
    "Fm2prof.Props.C28_regions_without_cross_section_partial",
    "Fm2prof.Props.C28_fails_iff",
    "Fm2prof.Props.C28_region_named_like_id_violated",
    "Fm2prof.Props.C28_edges_violated"
   ],
   "note": "Proved for faces. Violated for links (a region without faces leaves its links to the empty name) and when a region is named like a cross-section in another region (witnesses); links are proved for regions that contain faces."
  },
  {
   "property": "C29",
   "status": "proved",
   "theorems": [
    "Fm2prof.Props.C29_disjoint",
    "Fm2prof.Props.C29_every_face_once",
    "Fm2prof.Props.C29_areas_add_up"
   ],
   "note": ""
  },
  {
   "property": "C30",
   "status": "proved",
   "theorems": [
    "Fm2prof.Props.C30_no_variance",
    "Fm2prof.Props.C30_split",
    "Fm2prof.Props.C30_classes_ordered",
    "Fm2prof.Props.C30_defined_iff"
   ],
   "note": ""
  },
  {
   "property": "C31",
   "status": "proved",
   "theorems": [
    "Fm2prof.Props.C31_nodes",
    "Fm2prof.Props.C31_grid_points",
    "Fm2prof.Props.C31_grid_points_defined",
    "Fm2prof.Props.C31_cross_sections",
    "Fm2prof.Props.C31_consistent"
   ],
   "note": ""
  },
  {
   "property": "C32",
   "status": "partial",
   "theorems": [
    "Fm2prof.Props.C32_accepted_iff",
    "Fm2prof.Props.C32_only_sections_change",
    "Fm2prof.Props.C32_known_names_partial",
    "Fm2prof.Props.C32_capitals_violated",
    "Fm2prof.Props.C32_overlaps_reported"
   ],
   "note": "Acceptance and overlap reports proved. Violated: a section written with capitals keeps them and is then unknown to the exporters (witness). The known names are proved for lower-case sections."
  },
  {
   "property": "C33",
   "status": "partial",
   "theorems": [
    "Fm2prof.Props.C33_complete",
    "Fm2prof.Props.C33_accepted_iff_partial",
    "Fm2prof.Props.C33_multi_part_violated"
   ],
   "note": "Completeness proved. Violated: a multi-part geometry whose first part has one ring is accepted and loses its other parts (witness). The exact acceptance rule is proved for other geometries."
  },
  {
   "property": "C34",
   "status": "partial",
   "theorems": [
    "Fm2prof.Props.C34_from_same_stamp",
    "Fm2prof.Props.C34_transparent_partial",
    "Fm2prof.Props.C34_forced",
    "Fm2prof.Props.C34_changed_polygons_violated"
   ],
   "note": "Violated: the cache is keyed by the map file's stamp only, so changed polygons give the old classification (witness). Proved when equal stamps mean equal inputs, and for runs that ignore the cache."
  },
  {
   "property": "C35",
   "status": "partial",
   "theorems": [
    "Fm2prof.Props.C35_read_iff",
    "Fm2prof.Props.C35_columns_aligned",
    "Fm2prof.Props.C35_errors",
    "Fm2prof.Props.C35_legacy_header_violated",
    "Fm2prof.Props.C35_blank_line_violated"
   ],
   "note": "Proved as an exact characterisation of accepted files and their columns. A header above lines in the old format and blank lines are rejected (witnesses)."
  },
  {
   "property": "C36",
   "status": "proved",
   "theorems": [
    "Fm2prof.Props.C36_read_back",
    "Fm2prof.Props.C36_precision",
    "Fm2prof.Props.C36_exact",
    "Fm2prof.Props.C36_generated"
   ],
   "note": ""
  },
  {
   "property": "C37",
   "status": "proved",
   "theorems": [
    "Fm2prof.Props.C37_transposition"
   ],
   "note": ""
  },
  {
   "property": "C38",
   "status": "proved",
   "theorems": [
    "Fm2prof.Props.C38_selection"
   ],
   "note": ""
  },
  {
   "property": "C39",
   "status": "partial",
   "theorems": [
    "Fm2prof.Props.C39_keys_kept",
    "Fm2prof.Props.C39_history_partial",
    "Fm2prof.Props.C39_set_one",
    "Fm2prof.Props.C39_debug_violated"
   ],
   "note": "Proved for parameters and input files over every history; violated for the debug keys, which cannot be set through set_parameter (witness for every debug key)."
  },
  {
   "property": "C40",
   "status": "proved",
   "theorems": [
    "Fm2prof.Props.C40_loaded",
    "Fm2prof.Props.C40_any_text",
    "Fm2prof.Props.C40_same_texts",
    "Fm2prof.Props.C40_order",
    "Fm2prof.Props.C40_succeeds"
   ],
   "note": ""
  },
  {
   "property": "C41",
   "status": "proved",
   "theorems": [
    "Fm2prof.Props.C41_idempotent"
   ],
   "note": ""
  },
  {
   "property": "C42",
   "status": "proved",
   "theorems": [
    "Fm2prof.Props.C42_restored",
    "Fm2prof.Props.C42_loads"
   ],
   "note": ""
  },
  {
   "property": "C43",
   "status": "proved",
   "theorems": [
    "Fm2prof.Props.C43_round_trip",
    "Fm2prof.Props.C43_by_id",
    "Fm2prof.Props.C43_precision"
   ],
   "note": "Definitions are read back exactly up to the printed precision; the numbers printed in full are assumed to be floats."
  },
  {
   "property": "C44",
   "status": "proved",
   "theorems": [
    "Fm2prof.Props.C44_round_trip",
    "Fm2prof.Props.C44_unknown_name"
   ],
   "note": "Names without commas, distinct and not equal to the word id."
  },
  {
   "property": "C45",
   "status": "proved",
   "theorems": [
    "Fm2prof.Props.C45_levels_increase"
   ],
   "note": ""
  },
  {
   "property": "C46",
   "status": "partial",
   "theorems": [
    "Fm2prof.Props.C46_increasing_partial",
    "Fm2prof.Props.C46_equal_levels_violated"
   ],
   "note": "Violated: levels closer than the printed precision are printed equal (witness). Proved for gaps above 0.0001."
  },
  {
   "property": "C47",
   "status": "proved",
   "theorems": [
    "Fm2prof.Props.C47_one_block_each",
    "Fm2prof.Props.C47_references"
   ],
   "note": ""
  },
  {
   "property": "C48",
   "status": "partial",
   "theorems": [
    "Fm2prof.Props.C48_columns_partial",
    "Fm2prof.Props.C48_flow_area_violated",
    "Fm2prof.Props.C48_field_count_violated"
   ],
   "note": "Violated for every cross-section with a summer dike: the flow area column holds the total area; metadata rows have 24 fields under 20 columns (proved). All other columns are proved."
  },
  {
   "property": "C49",
   "status": "proved",
   "theorems": [
    "Fm2prof.Props.C49_refused",
    "Fm2prof.Props.C49_overwrites",
    "Fm2prof.Props.C49_no_results"
   ],
   "note": ""
  },
  {
   "property": "C50",
   "status": "proved",
   "theorems": [
    "Fm2prof.Props.C50_refused_again",
    "Fm2prof.Props.C50_exported",
    "Fm2prof.Props.C50_kept"
   ],
   "note": ""
  },
  {
   "property": "C51",
   "status": "partial",
   "theorems": [
    "Fm2prof.Props.C51_others_partial",
    "Fm2prof.Props.C51_never_raises",
    "Fm2prof.Props.C51_contents",
    "Fm2prof.Props.C51_violated"
   ],
   "note": "Violated: a file that fails stops the files after it in the same group (locations, definitions and roughness; SOBEK 3; test and volumes), see the witness. Proved: the files before it and of the other groups are as they would be, the run returns the same and does not raise from exporting; contents of all files when nothing fails."
  },
  {
   "property": "C52",
   "status": "proved",
   "theorems": [
    "Fm2prof.Props.C52_in_order",
    "Fm2prof.Props.C52_first_failure"
   ],
   "note": ""
  },
  {
   "property": "C53",
   "status": "partial",
   "theorems": [
    "Fm2prof.Props.C53_returns_partial",
    "Fm2prof.Props.C53_raises",
    "Fm2prof.Props.C53_raises_violated",
    "Fm2prof.Props.C53_true_violated"
   ],
   "note": "Violated: a run raises when the input does not load, a selected location does not exist or a cross-section cannot be made, and reports success without having written anything when there are no cross-sections or the output directory is missing (witnesses). Proved: exactly when a run returns true, exactly when and what it raises, and that a run returning false has changed no file."
  },
  {
   "property": "C54",
   "status": "proved",
   "theorems": [
    "Fm2prof.Props.C54_stopped",
    "Fm2prof.Props.C54_goes_on"
   ],
   "note": ""
  },
  {
   "property": "C55",
   "status": "proved",
   "theorems": [
    "Fm2prof.Props.C55_sum",
    "Fm2prof.Props.C55_inner",
    "Fm2prof.Props.C55_ends",
    "Fm2prof.Props.C55_positive",
    "Fm2prof.Props.C55_branch_total"
   ],
   "note": ""
  },
  {
   "property": "C56",
   "status": "partial",
   "theorems": [
    "Fm2prof.Props.C56_kept_points",
    "Fm2prof.Props.C56_lengths",
    "Fm2prof.Props.C56_conserved",
    "Fm2prof.Props.C56_accepted_partial",
    "Fm2prof.Props.C56_three_points_violated",
    "Fm2prof.Props.C56_single_point_violated",
    "Fm2prof.Props.C56_unknown_rule"
   ],
   "note": "Conservation proved for every accepted branch, kept points and lengths for each rule. Violated on short branches: ignoreEdges with three points is refused, onlyEdges with one point doubles it (witnesses)."
  },
  {
   "property": "C57",
   "status": "partial",
   "theorems": [
    "Fm2prof.Props.C57_inner_point",
    "Fm2prof.Props.C57_end_points",
    "Fm2prof.Props.C57_remaining_partial",
    "Fm2prof.Props.C57_unknown_violated",
    "Fm2prof.Props.C57_duplicate_violated",
    "Fm2prof.Props.C57_capitals_violated"
   ],
   "note": "Proved for distinct known exceptions that leave a point. Violated: unknown ids stop the generator, an id listed twice removes another point, ids with capitals are never found (witnesses)."
  },
  {
   "property": "C58",
   "status": "partial",
   "theorems": [
    "Fm2prof.Props.C58_window",
    "Fm2prof.Props.C58_history",
    "Fm2prof.Props.C58_unset_partial",
    "Fm2prof.Props.C58_unset_violated"
   ],
   "note": "Violated for unset times: they are taken from the first series read and cut the later ones (witness). Proved for set times, for every sequence of series, and for the first series read without times."
  },
  {
   "property": "C59",
   "status": "proved",
   "theorems": [
    "Fm2prof.Props.C59_rows",
    "Fm2prof.Props.C59_empty",
    "Fm2prof.Props.C59_short",
    "Fm2prof.Props.C59_file",
    "Fm2prof.Props.C59_column"
   ],
   "note": ""
  },
  {
   "property": "C60",
   "status": "partial",
   "theorems": [
    "Fm2prof.Props.C60_bins_partial",
    "Fm2prof.Props.C60_once",
    "Fm2prof.Props.C60_label_violated",
    "Fm2prof.Props.C60_last_violated"
   ],
   "note": "Violated: rows are labelled with the upper end of their bin, and discharges from the last bin upwards are not used (witnesses). Proved: which levels each row averages, and that no level is used twice."
  },
  {
   "property": "C61",
   "status": "proved",
   "theorems": [
    "Fm2prof.Props.C61_labelled",
    "Fm2prof.Props.C61_consequences",
    "Fm2prof.Props.C61_unique"
   ],
   "note": ""
  },
  {
   "property": "C62",
   "status": "proved",
   "theorems": [
    "Fm2prof.Props.C62_clamped"
   ],
   "note": ""
  },
  {
   "property": "C63",
   "status": "proved",
   "theorems": [
    "Fm2prof.Props.C63_lookup"
   ],
   "note": ""
  },
  {
   "property": "C64",
   "status": "partial",
   "theorems": [
    "Fm2prof.Props.C64_counts_partial",
    "Fm2prof.Props.C64_second_run_violated",
    "Fm2prof.Props.C64_second_project_violated"
   ],
   "note": "Violated: a second run of a project reports the messages of both runs (witness), and a project made after another one reports no warnings and errors at all (proved for all histories). Proved for all that is logged since the first project of the process was made."
  },
  {
   "property": "C65",
   "status": "proved",
   "theorems": [
    "Fm2prof.Props.C65_centre_levels",
    "Fm2prof.Props.C65_missing_only_if_always_dry",
    "Fm2prof.Props.C65_at_or_above_bed"
   ],
   "note": ""
  },
  {
   "property": "C66",
   "status": "proved",
   "theorems": [
    "Fm2prof.Props.C66_areas_and_volumes",
    "Fm2prof.Props.C66_wet_area_ge_part"
   ],
   "note": ""
  },
  {
   "property": "C67",
   "status": "partial",
   "theorems": [
    "Fm2prof.Props.C67_flow_le_total_partial",
    "Fm2prof.Props.C67_flow_exceeds_total_violated"
   ],
   "note": "Violated: a resting lake with a velocity conveys but is not wet area. Holds when no resting lake conveys."
  },
  {
   "property": "C68",
   "status": "partial",
   "theorems": [
    "Fm2prof.Props.C68_faces",
    "Fm2prof.Props.C68_edges",
    "Fm2prof.Props.C68_point",
    "Fm2prof.Props.C68_selection",
    "Fm2prof.Props.C68_files_partial",
    "Fm2prof.Props.C68_nan_violated"
   ],
   "note": "Points are proved complete and in order; the files read back as all points if none has a NaN. Violated for a face whose bed level is NaN: the file of all points breaks off."
  },
  {
   "property": "C69",
   "status": "proved",
   "theorems": [
    "Fm2prof.Props.C69_round_trip",
    "Fm2prof.Props.C69_write_refused",
    "Fm2prof.Props.C69_read_refused",
    "Fm2prof.Props.C69_no_points",
    "Fm2prof.Props.C69_other_files"
   ],
   "note": ""
  },
  {
   "property": "C70",
   "status": "proved",
   "theorems": [
    "Fm2prof.Props.C70_route",
    "Fm2prof.Props.C70_members",
    "Fm2prof.Props.C70_nodup",
    "Fm2prof.Props.C70_measuring"
   ],
   "note": ""
  },
  {
   "property": "C71",
   "status": "proved",
   "theorems": [
    "Fm2prof.Props.C71_first_row_with_volume",
    "Fm2prof.Props.C71_no_volume"
   ],
   "note": ""
  },
  {
   "property": "C72",
   "status": "proved",
   "theorems": [
    "Fm2prof.Props.C72_parse",
    "Fm2prof.Props.C72_split"
   ],
   "note": ""
  },
  {
   "property": "C73",
   "status": "partial",
   "theorems": [
    "Fm2prof.Props.C73_volumes_nonnegative_partial",
    "Fm2prof.Props.C73_negative_volume_violated"
   ],
   "note": "Violated: the pool correction can exceed the depth. Holds when no cell falls below its first depth."
  },
  {
   "property": "C74",
   "status": "partial",
   "theorems": [
    "Fm2prof.Props.C74_rising_water_partial",
    "Fm2prof.Props.C74_falling_water_violated"
   ],
   "note": "Violated when the water falls (witness). Holds for rising water."
  },
  {
   "property": "C75",
   "status": "partial",
   "theorems": [
    "Fm2prof.Props.C75_not_empty_partial",
    "Fm2prof.Props.C75_single_level_violated"
   ],
   "note": "Violated when a section has a single level over all cross-sections (witness). Holds otherwise."
  },
  {
   "property": "C76",
   "status": "partial",
   "theorems": [
    "Fm2prof.Props.C76_own_points_partial",
    "Fm2prof.Props.C76_accepted",
    "Fm2prof.Props.C76_previous_branch_violated",
    "Fm2prof.Props.C76_extra_id_violated"
   ],
   "note": "Proved for networks whose ten lines after the name hold the four lists. Violated otherwise: a branch can silently take the lists of the one before it, and one id too many shifts all later ids (witnesses)."
  },
  {
   "property": "C77",
   "status": "partial",
   "theorems": [
    "Fm2prof.Props.C77_inner_points",
    "Fm2prof.Props.C77_ends_partial",
    "Fm2prof.Props.C77_two_points_violated"
   ],
   "note": "Proved for three or more points. Violated for two points: the moved first point is used with its old offset (witness)."
  },
  {
   "property": "C78",
   "status": "proved",
   "theorems": [
    "Fm2prof.Props.C78_rule_file"
   ],
   "note": ""
  },
  {
   "property": "C79",
   "status": "partial",
   "theorems": [
    "Fm2prof.Props.C79_read_back_partial",
    "Fm2prof.Props.C79_capitals_violated",
    "Fm2prof.Props.C79_after_run_partial"
   ],
   "note": "Violated for every branch with a capital in its name (proved): nothing is found. Proved for lower-case branches."
  },
  {
   "property": "C80",
   "status": "proved",
   "theorems": [
    "Fm2prof.Props.C80_rows",
    "Fm2prof.Props.C80_refused_iff"
   ],
   "note": ""
  },
  {
   "property": "C81",
   "status": "proved",
   "theorems": [
    "Fm2prof.Props.C81_rectangular"
   ],
   "note": ""
  },
  {
   "property": "C82",
   "status": "proved",
   "theorems": [
    "Fm2prof.Props.C82_rows"
   ],
   "note": ""
  },
  {
   "property": "C83",
   "status": "proved",
   "theorems": [
    "Fm2prof.Props.C83_rows"
   ],
   "note": ""
  },
  {
   "property": "C84",
   "status": "partial",
   "theorems": [
    "Fm2prof.Props.C84_rejected_partial",
    "Fm2prof.Props.C84_violated"
   ],
   "note": "Violated: a file without a section output is rejected after its parameters have been taken over (witness). Proved for missing files, texts that cannot be parsed and texts without a section input."
  },
  {
   "property": "C85",
   "status": "partial",
   "theorems": [
    "Fm2prof.Props.C85_restored_partial",
    "Fm2prof.Props.C85_violated"
   ],
   "note": "Violated: paths are stored joined with the directory of the configuration file and joined again when read (witness). Proved for absolute paths and for configuration files in the current directory."
  },
  {
   "property": "C86",
   "status": "partial",
   "theorems": [
    "Fm2prof.Props.C86_has_directory",
    "Fm2prof.Props.C86_set_partial",
    "Fm2prof.Props.C86_violated"
   ],
   "note": "Violated: setting creates the directory relative to the current directory, asking names it relative to the configuration file (witness). Proved for absolute paths and for configuration files in the current directory; asking whether there is a directory creates the one it names."
  },
  {
   "property": "C87",
   "status": "partial",
   "theorems": [
    "Fm2prof.Props.C87_fresh_partial",
    "Fm2prof.Props.C87_violated"
   ],
   "note": "Violated: a roughness file of an earlier run stays when the new run has no such section (witness). Proved when all result files that were there are written again."
  },
  {
   "property": "C88",
   "status": "partial",
   "theorems": [
    "Fm2prof.Props.C88_same_name_partial",
    "Fm2prof.Props.C88_violated"
   ],
   "note": "Violated: the first 2D name with the same first nine characters is taken (witness). Proved when there is no other such name."
  },
  {
   "property": "C89",
   "status": "partial",
   "theorems": [
    "Fm2prof.Props.C89_moments_partial",
    "Fm2prof.Props.C89_short_violated"
   ],
   "note": "Violated for all series of less than six days, which raise ValueError. Proved for all others."
  },
  {
   "property": "C90",
   "status": "partial",
   "theorems": [
    "Fm2prof.Props.C90_data_partial",
    "Fm2prof.Props.C90_violated"
   ],
   "note": "Violated: a station with the same series as an earlier one is left out (witness). Proved for different series; in general what is drawn is a subsequence with every series in it."
  },
  {
   "property": "C91",
   "status": "partial",
   "theorems": [
    "Fm2prof.Props.C91_discharges_partial",
    "Fm2prof.Props.C91_first",
    "Fm2prof.Props.C91_violated"
   ],
   "note": "Violated: if the last station has no known level ValueError is raised (witness). Proved otherwise."
  },
  {
   "property": "C92",
   "status": "proved",
   "theorems": [
    "Fm2prof.Props.C92_common",
    "Fm2prof.Props.C92_bias_mae",
    "Fm2prof.Props.C92_offset",
    "Fm2prof.Props.C92_highest",
    "Fm2prof.Props.C92_highest_order"
   ],
   "note": ""
  },
  {
   "property": "C93",
   "status": "partial",
   "theorems": [
    "Fm2prof.Props.C93_complete_partial",
    "Fm2prof.Props.C93_critical_violated",
    "Fm2prof.Props.C93_own_partial"
   ],
   "note": "Violated: an ordinary critical message is not written (witness); the program itself logs none. Proved for all histories without critical messages."
  },
  {
   "property": "C94",
   "status": "partial",
   "theorems": [
    "Fm2prof.Props.C94_only_own_partial",
    "Fm2prof.Props.C94_violated"
   ],
   "note": "Violated: all that a later project logs is also written to the log file of an earlier one (proved for all histories). Proved while no other project is made."
  },
  {
   "property": "C95",
   "status": "partial",
   "theorems": [
    "Fm2prof.Props.C95_violated"
   ],
   "note": "Violated: no face is ever marked as a lake (proved for all imported data, with a lake as witness)."
  },
  {
   "property": "C96",
   "status": "partial",
   "theorems": [
    "Fm2prof.Props.C96_envelopes_partial",
    "Fm2prof.Props.C96_violated"
   ],
   "note": "Violated: if the hull of one cross-section fails, for example because its faces are in line, no envelope is exported. Proved if hulls fail with IndexError only."
  },
  {
   "property": "C97",
   "status": "proved",
   "theorems": [
    "Fm2prof.Props.C97_profiles",
    "Fm2prof.Props.C97_points",
    "Fm2prof.Props.C97_locations"
   ],
   "note": ""
  },
  {
   "property": "C98",
   "status": "partial",
   "theorems": [
    "Fm2prof.Props.C98_no_roughness_violated",
    "Fm2prof.Props.C98_files_partial"
   ],
   "note": "Violated: a run without section polygons leaves no roughness files (proved for all such runs). Proved when the edges are in main, floodplain1 and floodplain2."
  },
  {
   "property": "C99",
   "status": "proved",
   "theorems": [
    "Fm2prof.Props.C99_volumes"
   ],
   "note": "Rows for each level of each cross-section; with the correction switched off the corrected volumes equal the uncorrected ones."
  },
  {
   "property": "C100",
   "status": "proved",
   "theorems": [
    "Fm2prof.Props.C100_faces",
    "Fm2prof.Props.C100_sums"
   ],
   "note": ""
  },
  {
   "property": "C101",
   "status": "proved",
   "theorems": [
    "Fm2prof.Props.C101_selection"
   ],
   "note": ""
  },
  {
   "property": "C102",
   "status": "proved",
   "theorems": [
    "Fm2prof.Props.C102_skipping"
   ],
   "note": ""
  },
  {
   "property": "C103",
   "status": "proved",
   "theorems": [
    "Fm2prof.Props.C103_local"
   ],
   "note": ""
  },
  {
   "property": "C104",
   "status": "partial",
   "theorems": [
    "Fm2prof.Props.C104_levels_partial",
    "Fm2prof.Props.C104_roughness",
    "Fm2prof.Props.C104_floodplain_violated",
    "Fm2prof.Props.C104_run_partial"
   ],
   "note": "Violated: without correction the base level of the floodplain is minus the tolerance, whatever the reference level (proved for all models with section polygons). All else is proved, for a minimiser that finds the shifted crest for shifted levels. Also for the files of whole runs: same outcome, same locations, definitions with levels that are higher before printing."
  },
  {
   "property": "C105",
   "status": "proved",
   "theorems": [
    "Fm2prof.Props.C105_scale",
    "Fm2prof.Props.C105_definitions",
    "Fm2prof.Props.C105_run"
   ],
   "note": "Proved for one cross-section, for its lines in the definition file, and for all result files of whole runs but the table of volumes."
  },
  {
   "property": "C106",
   "status": "partial",
   "theorems": [
    "Fm2prof.Props.C106_numbering_partial",
    "Fm2prof.Props.C106_mean_velocity_violated",
    "Fm2prof.Props.C106_run_partial",
    "Fm2prof.Props.C106_two_nearest_violated"
   ],
   "note": "Violated for the method of mean velocities, which smooths over neighbouring row numbers, and for a location with two nearest faces (witnesses). Proved for the default method when one face is nearest to the location, for one cross-section and for the result files of whole runs."
  },
  {
   "property": "C107",
   "status": "partial",
   "theorems": [
    "Fm2prof.Props.C107_dry_partial",
    "Fm2prof.Props.C107_missing_velocity_violated"
   ],
   "note": "Violated for a dry face with missing velocities (witness). Proved for the default method and dry faces with velocity zero; section widths and base level use all faces and are left out."
  },
  {
   "property": "C108",
   "status": "proved",
   "theorems": [
    "Fm2prof.Props.C108_axes",
    "Fm2prof.Props.C108_run"
   ],
   "note": ""
  },
  {
   "property": "C109",
   "status": "partial",
   "theorems": [
    "Fm2prof.Props.C109_again_partial",
    "Fm2prof.Props.C109_midnight_violated"
   ],
   "note": "Violated when all times are at midnight: pandas then writes dates only, which the second reading leaves as texts, so that every use of the table fails (proved for all such results). Proved when some time is not at midnight."
  },
  {
   "property": "C110",
   "status": "partial",
   "theorems": [
    "Fm2prof.Props.C110_fresh_partial",
    "Fm2prof.Props.C110_stale_violated",
    "Fm2prof.Props.C110_offset_violated"
   ],
   "note": "Violated: in a directory with tables new results and new offsets are ignored without a message other than a log line (proved for all). Proved for directories without tables."
  },
  {
   "property": "C111",
   "status": "partial",
   "theorems": [
    "Fm2prof.Props.C111_writes",
    "Fm2prof.Props.C111_between_partial",
    "Fm2prof.Props.C111_discharges_violated",
    "Fm2prof.Props.C111_map_violated"
   ],
   "note": "Violated: stopped within 1D_Q.csv or the station mapping, the next run silently works with the rows that are there (proved for every line end). Proved for all points between files and within the first file of each pair."
  },
  {
   "property": "C112",
   "status": "partial",
   "theorems": [
    "Fm2prof.Props.C112_times",
    "Fm2prof.Props.C112_refused",
    "Fm2prof.Props.C112_zone_violated"
   ],
   "note": "The part after the seconds is ignored, so a time zone has no effect (C112_zone_violated, for all zones); decimals of seconds and zone names are accepted."
  },
  {
   "property": "C113",
   "status": "partial",
   "theorems": [
    "Fm2prof.Props.C113_matched_partial",
    "Fm2prof.Props.C113_numbers_violated",
    "Fm2prof.Props.C113_midnight_violated"
   ],
   "note": "Violated for 2D stations whose names are numbers, for which no values are found, and for results at midnight, for which the tables cannot be used (both for all such results). Proved for names that are not numbers and results with a time of day."
  },
  {
   "property": "C114",
   "status": "partial",
   "theorems": [
    "Fm2prof.Props.C114_both_partial",
    "Fm2prof.Props.C114_none_partial",
    "Fm2prof.Props.C114_only_2d_violated",
    "Fm2prof.Props.C114_only_1d_violated"
   ],
   "note": "Violated: a 2D path without a 1D path is ignored and a 1D path without a 2D path raises TypeError (proved for all). Proved for both paths and for none."
  },
  {
   "property": "C115",
   "status": "partial",
   "theorems": [
    "Fm2prof.Props.C115_first",
    "Fm2prof.Props.C115_again_partial",
    "Fm2prof.Props.C115_stale_violated",
    "Fm2prof.Props.C115_wrong_violated"
   ],
   "note": "Violated: a comparison with other results in a directory that already has rating curves shows the old ones (for all results). Proved for a directory without them, and for the same results again when the values can be read back from text."
  },
  {
   "property": "C116",
   "status": "partial",
   "theorems": [
    "Fm2prof.Props.C116_ignored_violated",
    "Fm2prof.Props.C116_inside_partial",
    "Fm2prof.Props.C116_wrong_violated"
   ],
   "note": "Violated: rating curves never depend on the start and stop times (for all times). Proved when all records lie between them."
  },
  {
   "property": "C117",
   "status": "partial",
   "theorems": [
    "Fm2prof.Props.C117_first_partial",
    "Fm2prof.Props.C117_written_partial",
    "Fm2prof.Props.C117_times",
    "Fm2prof.Props.C117_kept_violated",
    "Fm2prof.Props.C117_wrong_violated"
   ],
   "note": "Violated: statistics once shown are kept when the times change (for all changes). Proved when times are set first, and from the moment statistics are written until the times change again."
  },
  {
   "property": "C118",
   "status": "proved",
   "theorems": [
    "Fm2prof.Props.C118_statistics",
    "Fm2prof.Props.C118_computed"
   ],
   "note": "For tables of both models with the same stations and increasing times."
  },
  {
   "property": "C119",
   "status": "partial",
   "theorems": [
    "Fm2prof.Props.C119_table",
    "Fm2prof.Props.C119_header",
    "Fm2prof.Props.C119_files_partial",
    "Fm2prof.Props.C119_suffix_violated",
    "Fm2prof.Props.C119_columns_violated"
   ],
   "note": "Violated for names with a suffix, where the summary replaces the table (for all such names), and for the documented columns. Proved for names without a dot."
  },
  {
   "property": "C120",
   "status": "proved",
   "theorems": [
    "Fm2prof.Props.C120_summary"
   ],
   "note": ""
  },
  {
   "property": "C121",
   "status": "partial",
   "theorems": [
    "Fm2prof.Props.C121_capitals_partial",
    "Fm2prof.Props.C121_small_violated"
   ],
   "note": "Violated: lmw in small letters counts in the statistics but not on a route. Proved for names with LMW."
  },
  {
   "property": "C122",
   "status": "partial",
   "theorems": [
    "Fm2prof.Props.C122_edited_partial",
    "Fm2prof.Props.C122_created_partial",
    "Fm2prof.Props.C122_dotted_violated"
   ],
   "note": "`create` appends .ini to the name, the other commands replace what follows the last dot: a project rhine.v2 is created in rhine.v2.ini and looked for in rhine.ini (C122_dotted_violated)."
  },
  {
   "property": "C123",
   "status": "partial",
   "theorems": [
    "Fm2prof.Props.C123_only_partial",
    "Fm2prof.Props.C123_history",
    "Fm2prof.Props.C123_replaced_violated"
   ],
   "note": "An existing configuration file of the name is replaced without a question (C123_replaced_violated)."
  },
  {
   "property": "C124",
   "status": "partial",
   "theorems": [
    "Fm2prof.Props.C124_no_results_partial",
    "Fm2prof.Props.C124_missing_violated"
   ],
   "note": "A missing file means the default configuration: the command ends with status 0 and makes a directory `output` in the current directory (C124_missing_violated). No results are written (C124_no_results_partial)."
  },
  {
   "property": "C125",
   "status": "partial",
   "theorems": [
    "Fm2prof.Props.C125_status_partial",
    "Fm2prof.Props.C125_failed_violated"
   ],
   "note": "The result of run() is dropped, so failed runs end with status 0 (C125_failed_violated)."
  },
  {
   "property": "C126",
   "status": "partial",
   "theorems": [
    "Fm2prof.Props.C126_opened_partial",
    "Fm2prof.Props.C126_sections_violated",
    "Fm2prof.Props.C126_text_violated"
   ],
   "note": "The exception caught at opening is never raised by the reader: files without [input] or [output] give an AttributeError, and errors of configparser pass (C126_sections_violated, C126_text_violated)."
  },
  {
   "property": "C127",
   "status": "partial",
   "theorems": [
    "Fm2prof.Props.C127_results_partial",
    "Fm2prof.Props.C127_log_violated"
   ],
   "note": "Checking makes the output directory and adds to the log file in it (C127_log_violated); nothing else changes (C127_results_partial)."
  },
  {
   "property": "C128",
   "status": "proved",
   "theorems": [
    "Fm2prof.Props.C128_kept"
   ],
   "note": "The results must be there: at least one of the files the program looks for. Files of comparisons may change when a command is a comparison."
  },
  {
   "property": "C129",
   "status": "proved",
   "theorems": [
    "Fm2prof.Props.C129_widths"
   ],
   "note": ""
  },
  {
   "property": "C130",
   "status": "proved",
   "theorems": [
    "Fm2prof.Props.C130_levels",
    "Fm2prof.Props.C130_ends"
   ],
   "note": ""
  },
  {
   "property": "C131",
   "status": "partial",
   "theorems": [
    "Fm2prof.Props.C131_read_within",
    "Fm2prof.Props.C131_roughness_partial",
    "Fm2prof.Props.C131_dry_violated"
   ],
   "note": "A section that is dry at the first map gets roughness 0 at the lowest levels of the file (C131_dry_violated); for falling water see C74_falling_water_violated. Proved for sections that are always wet and rising water (C131_roughness_partial)."
  },
  {
   "property": "C132",
   "status": "partial",
   "theorems": [
    "Fm2prof.Props.C132_branches_partial",
    "Fm2prof.Props.C132_other_names_violated",
    "Fm2prof.Props.C132_after_run"
   ],
   "note": "A single name of which the part after the last underscore is no number makes listing the branches raise ValueError (C132_other_names_violated)."
  },
  {
   "property": "C133",
   "status": "partial",
   "theorems": [
    "Fm2prof.Props.C133_one_branch_partial",
    "Fm2prof.Props.C133_branches_violated"
   ],
   "note": "With cross-sections on two or more branches any query raises ValueError: membership is tested in a pair of arrays (C133_branches_violated). Proved for models with one branch."
  },
  {
   "property": "C134",
   "status": "partial",
   "theorems": [
    "Fm2prof.Props.C134_plot_all_violated"
   ],
   "note": "plot_cross_sections passes an argument that figure_cross_section does not have: TypeError after every successful run, no figure (C134_plot_all_violated)."
  },
  {
   "property": "C135",
   "status": "partial",
   "theorems": [
    "Fm2prof.Props.C135_no_sections_violated",
    "Fm2prof.Props.C135_figure_partial"
   ],
   "note": "No figure can be made after runs without section polygons (no roughness file, C135_no_sections_violated). Proved for runs with them and names branch_number."
  },
  {
   "property": "C136",
   "status": "proved",
   "theorems": [
    "Fm2prof.Props.C136_roughness_curves",
    "Fm2prof.Props.C136_kept",
    "Fm2prof.Props.C136_failed",
    "Fm2prof.Props.C136_others",
    "Fm2prof.Props.C136_saved",
    "Fm2prof.Props.C136_distinct"
   ],
   "note": ""
  },
  {
   "property": "C137",
   "status": "partial",
   "theorems": [
    "Fm2prof.Props.C137_labels_partial",
    "Fm2prof.Props.C137_flow_violated"
   ],
   "note": "The curve labelled 1D Flow Volume (incl. SD) is the flow volume without the correction (C137_flow_violated)."
  },
  {
   "property": "C138",
   "status": "proved",
   "theorems": [
    "Fm2prof.Props.C138_profile",
    "Fm2prof.Props.C138_lines"
   ],
   "note": ""
  },
  {
   "property": "C139",
   "status": "partial",
   "theorems": [
    "Fm2prof.Props.C139_range_partial",
    "Fm2prof.Props.C139_branches_violated",
    "Fm2prof.Props.C139_capitals_violated"
   ],
   "note": "ValueError with several branches, TypeError for a branch name with capitals. Proved for one branch and roughness that can be read."
  },
  {
   "property": "C140",
   "status": "proved",
   "theorems": [
    "Fm2prof.Props.C140_usable"
   ],
   "note": ""
  },
  {
   "property": "C141",
   "status": "proved",
   "theorems": [
    "Fm2prof.Props.C141_parameters",
    "Fm2prof.Props.C141_input_files"
   ],
   "note": ""
  },
  {
   "property": "C142",
   "status": "partial",
   "theorems": [
    "Fm2prof.Props.C142_no_effect_violated",
    "Fm2prof.Props.C142_wrong_type_violated",
    "Fm2prof.Props.C142_switch_text_violated"
   ],
   "note": "CaseName, MinimumDepthThreshold and BedlevelCriterium are never read by a run (C142_no_effect_violated); any value is accepted for any parameter (C142_wrong_type_violated); the text False turns a switch on (C142_switch_text_violated)."
  },
  {
   "property": "C143",
   "status": "proved",
   "theorems": [
    "Fm2prof.Props.C143_locations",
    "Fm2prof.Props.C143_sections",
    "Fm2prof.Props.C143_regions",
    "Fm2prof.Props.C143_empty_regions",
    "Fm2prof.Props.C143_consistent"
   ],
   "note": "For projects without a cache file for the map file; with one see C144."
  },
  {
   "property": "C144",
   "status": "partial",
   "theorems": [
    "Fm2prof.Props.C144_edited_sections_violated",
    "Fm2prof.Props.C144_edited_regions_violated"
   ],
   "note": "The cache is tied to the map file only: edits of the polygon files and of the defaults are ignored as long as the map file stays (C144_edited_sections_violated, C144_edited_regions_violated). C143 is what holds without a cache file."
  },
  {
   "property": "C145",
   "status": "partial",
   "theorems": [
    "Fm2prof.Props.C145_refused_partial",
    "Fm2prof.Props.C145_raises_violated"
   ],
   "note": "Missing files, other extensions and two polygons of one name raise out of run (C145_raises_violated)."
  },
  {
   "property": "C146",
   "status": "partial",
   "theorems": [
    "Fm2prof.Props.C146_no_region_violated"
   ],
   "note": "Only the name is checked (C146_no_region_violated)."
  },
  {
   "property": "C147",
   "status": "partial",
   "theorems": [
    "Fm2prof.Props.C147_unknown_section_violated"
   ],
   "note": "The first unknown name in alphabetical order ends the writing of the D-Flow 1D files (C147_unknown_section_violated)."
  },
  {
   "property": "C148",
   "status": "proved",
   "theorems": [
    "Fm2prof.Props.C148_no_worse_than_start",
    "Fm2prof.Props.C148_exact"
   ],
   "note": "The search of scipy is a parameter: any search that ends no worse than it starts (C148_no_worse_than_start), or an exact one (C148_exact)."
  },
  {
   "property": "C149",
   "status": "partial",
   "theorems": [
    "Fm2prof.Props.C149_no_storage_violated",
    "Fm2prof.Props.C149_flow_spoiled_violated",
    "Fm2prof.Props.C149_flow_unused_violated",
    "Fm2prof.Props.C149_split_violated"
   ],
   "note": "The cost function compares with the 2D total volumes in all cases (C149_no_storage_violated, C149_flow_spoiled_violated, C149_flow_unused_violated, C149_split_violated)."
  },
  {
   "property": "C150",
   "status": "partial",
   "theorems": [
    "Fm2prof.Props.C150_without_polygons_partial",
    "Fm2prof.Props.C150_text_violated",
    "Fm2prof.Props.C150_set_text_violated"
   ],
   "note": "With a text for the map file every run with polygon files raises AttributeError (C150_text_violated, C150_set_text_violated); without polygon files there is no difference (C150_without_polygons_partial)."
  },
  {
   "property": "C151",
   "status": "proved",
   "theorems": [
    "Fm2prof.Props.C151_faces",
    "Fm2prof.Props.C151_edges",
    "Fm2prof.Props.C151_consistent"
   ],
   "note": ""
  },
  {
   "property": "C152",
   "status": "partial",
   "theorems": [
    "Fm2prof.Props.C152_readable_iff_partial",
    "Fm2prof.Props.C152_incomplete_raises",
    "Fm2prof.Props.C152_unused_violated",
    "Fm2prof.Props.C152_face_roughness_violated"
   ],
   "note": "mesh2d_u1 is never used but required (C152_unused_violated); mesh2d_czs is required also with section polygons, where it is not used (C152_face_roughness_violated)."
  },
  {
   "property": "C153",
   "status": "partial",
   "theorems": [
    "Fm2prof.Props.C153_fill_value_violated",
    "Fm2prof.Props.C153_marks_ignored_violated"
   ],
   "note": "np.array drops the mask of the netCDF variable, so fill values become numbers (C153_fill_value_violated, C153_marks_ignored_violated)."
  },
  {
   "property": "C154",
   "status": "partial",
   "theorems": [
    "Fm2prof.Props.C154_formats_partial",
    "Fm2prof.Props.C154_unknown_violated",
    "Fm2prof.Props.C154_test_roughness_violated"
   ],
   "note": "An unknown name empties the file without error (C154_unknown_violated); roughness in the test format always raises AttributeError (C154_test_roughness_violated)."
  },
  {
   "property": "C155",
   "status": "partial",
   "theorems": [
    "Fm2prof.Props.C155_lines_partial",
    "Fm2prof.Props.C155_short_violated",
    "Fm2prof.Props.C155_other_times_violated"
   ],
   "note": "At a moment without a record in one of the models, records of different times are subtracted (C155_other_times_violated); with less than six days ValueError is raised (C155_short_violated)."
  },
  {
   "property": "C156",
   "status": "partial",
   "theorems": [
    "Fm2prof.Props.C156_values_partial",
    "Fm2prof.Props.C156_unknown",
    "Fm2prof.Props.C156_same_km_violated",
    "Fm2prof.Props.C156_same_levels_violated"
   ],
   "note": "Stations with the same kilometre all show the value of the first (C156_same_km_violated); a station with the same levels as an earlier one is left out (C156_same_levels_violated)."
  },
  {
   "property": "C157",
   "status": "partial",
   "theorems": [
    "Fm2prof.Props.C157_heatmap_partial",
    "Fm2prof.Props.C157_window_violated",
    "Fm2prof.Props.C157_same_violated",
    "Fm2prof.Props.C157_curves_partial"
   ],
   "note": "Heat maps ignore the start and stop time (C157_window_violated) and leave out stations with the same differences as an earlier one (C157_same_violated). C157_curves_partial says the same of heat maps of rating curves, with discharges for times."
  },
  {
   "property": "C158",
   "status": "partial",
   "theorems": [
    "Fm2prof.Props.C158_files_partial",
    "Fm2prof.Props.C158_saved",
    "Fm2prof.Props.C158_statistics_violated",
    "Fm2prof.Props.C158_station_violated",
    "Fm2prof.Props.C158_title_violated"
   ],
   "note": "Figures of all statistics of a route share one file (C158_statistics_violated), the two types of figure at a station share one (C158_station_violated), and discharges with the default title do (C158_title_violated)."
  },
  {
   "property": "C159",
   "status": "partial",
   "theorems": [
    "Fm2prof.Props.C159_shares_partial",
    "Fm2prof.Props.C159_series",
    "Fm2prof.Props.C159_missing_violated",
    "Fm2prof.Props.C159_differences_violated"
   ],
   "note": "With a discharge at one station only its share is a hundred percent (C159_missing_violated); the differences are those of the second station, at all times (C159_differences_violated)."
  },
  {
   "property": "C160",
   "status": "partial",
   "theorems": [
    "Fm2prof.Props.C160_all_partial",
    "Fm2prof.Props.C160_no_routes_violated",
    "Fm2prof.Props.C160_short_violated"
   ],
   "note": "Without routes, the default, TypeError is raised (C160_no_routes_violated); with less than six days an error is raised after at most one figure (C160_short_violated)."
  },
  {
   "property": "C161",
   "status": "partial",
   "theorems": [
    "Fm2prof.Props.C161_time_partial",
    "Fm2prof.Props.C161_rating",
    "Fm2prof.Props.C161_word_violated"
   ],
   "note": "With another type of figure there is no error and no curve (C161_word_violated)."
  },
  {
   "property": "C162",
   "status": "partial",
   "theorems": [
    "Fm2prof.Props.C162_lines_partial",
    "Fm2prof.Props.C162_same_km_violated"
   ],
   "note": "A route that ends with two stations at one kilometre raises ValueError (C162_same_km_violated)."
  },
  {
   "property": "C163",
   "status": "partial",
   "theorems": [
    "Fm2prof.Props.C163_generated_partial",
    "Fm2prof.Props.C163_no_rules",
    "Fm2prof.Props.C163_error",
    "Fm2prof.Props.C163_missing_rules_violated",
    "Fm2prof.Props.C163_torn_violated"
   ],
   "note": "A rule file that is not there is ignored without a report (C163_missing_rules_violated); with too few ids the earlier location file is lost and a part of the new one is left (C163_torn_violated)."
  },
  {
   "property": "C164",
   "status": "partial",
   "theorems": [
    "Fm2prof.Props.C164_not_rising_partial",
    "Fm2prof.Props.C164_after_peak",
    "Fm2prof.Props.C164_lake_violated",
    "Fm2prof.Props.C164_mean_velocity_violated"
   ],
   "note": "A map without rise changes when a lake starts to count (C164_lake_violated) and, with ConveyanceDetectionMethod 0, the mean velocity (C164_mean_velocity_violated)."
  },
  {
   "property": "C165",
   "status": "partial",
   "theorems": [
    "Fm2prof.Props.C165_definitions",
    "Fm2prof.Props.C165_volumes",
    "Fm2prof.Props.C165_totals",
    "Fm2prof.Props.C165_divided_partial",
    "Fm2prof.Props.C165_fine_divides",
    "Fm2prof.Props.C165_flow_violated"
   ],
   "note": "The total widths and volumes never depend on the resolution (C165_totals). The flow width does, through the mean of the three fastest faces (C165_flow_violated)."
  },
  {
   "property": "C166",
   "status": "partial",
   "theorems": [
    "Fm2prof.Props.C166_writes",
    "Fm2prof.Props.C166_overwrite",
    "Fm2prof.Props.C166_early_partial",
    "Fm2prof.Props.C166_torn_violated"
   ],
   "note": "An incomplete result file counts as a result: later runs without the overwrite option are refused (C166_torn_violated)."
  },
  {
   "property": "C167",
   "status": "partial",
   "theorems": [
    "Fm2prof.Props.C167_listed_partial",
    "Fm2prof.Props.C167_unlisted_violated",
    "Fm2prof.Props.C167_never_violated"
   ],
   "note": "The geojson files and stored locations are not listed (C167_unlisted_violated); roughness_test.csv is listed and never written (C167_never_violated)."
  },
  {
   "property": "C168",
   "status": "partial",
   "theorems": [
    "Fm2prof.Props.C168_writes",
    "Fm2prof.Props.C168_repeat_partial",
    "Fm2prof.Props.C168_torn_violated"
   ],
   "note": "A cache file that was being written is left incomplete, and every later run raises JSONDecodeError until it is removed (C168_torn_violated)."
  },
  {
   "property": "C169",
   "status": "partial",
   "theorems": [
    "Fm2prof.Props.C169_share_partial",
    "Fm2prof.Props.C169_exact",
    "Fm2prof.Props.C169_refused",
    "Fm2prof.Props.C169_empty_violated"
   ],
   "note": "A share of less than two points leaves no points at all (C169_empty_violated)."
  },
  {
   "property": "C170",
   "status": "partial",
   "theorems": [
    "Fm2prof.Props.C170_alluvial_partial",
    "Fm2prof.Props.C170_nonalluvial_violated"
   ],
   "note": "The non-alluvial width is zero for every cross-section (C170_nonalluvial_violated)."
  },
  {
   "property": "C171",
   "status": "proved",
   "theorems": [
    "Fm2prof.Props.C171_settings",
    "Fm2prof.Props.C171_run",
    "Fm2prof.Props.C171_no_input",
    "Fm2prof.Props.C171_profiles"
   ],
   "note": "Missing input is reported in the log only: the exit status is 0 (C171_no_input). Simplification: results and input files are in different places, so that a run cannot overwrite its own input."
  },
  {
   "property": "C172",
   "status": "partial",
   "theorems": [
    "Fm2prof.Props.C172_sections_partial",
    "Fm2prof.Props.C172_regions_partial",
    "Fm2prof.Props.C172_missing_violated"
   ],
   "note": "A polygon file that does not exist is left out silently but for the log, and the run succeeds without it (C172_missing_violated)."
  },
  {
   "property": "C173",
   "status": "partial",
   "theorems": [
    "Fm2prof.Props.C173_history_partial",
    "Fm2prof.Props.C173_shared_violated"
   ],
   "note": "Two projects with the same map file and different polygons: the second one gets the sections of the first (C173_shared_violated)."
  },
  {
   "property": "C174",
   "status": "partial",
   "theorems": [
    "Fm2prof.Props.C174_repeat_partial",
    "Fm2prof.Props.C174_torn_violated"
   ],
   "note": "A run that is stopped while it writes a cache file makes every later run of the project fail with exit status 1 until the file is deleted (C174_torn_violated)."
  },
  {
   "property": "C175",
   "status": "partial",
   "theorems": [
    "Fm2prof.Props.C175_widths_partial",
    "Fm2prof.Props.C175_flow_partial",
    "Fm2prof.Props.C175_shallow_violated"
   ],
   "note": "A face that gets wet by a millimetre or less, and is under water by a centimetre or less in map LakeTimesteps, is taken for a lake and is missing in the width (C175_shallow_violated)."
  },
  {
   "property": "C176",
   "status": "proved",
   "theorems": [
    "Fm2prof.Props.C176_volumes",
    "Fm2prof.Props.C176_flat"
   ],
   "note": ""
  },
  {
   "property": "C177",
   "status": "proved",
   "theorems": [
    "Fm2prof.Props.C177_definitions"
   ],
   "note": ""
  },
  {
   "property": "C178",
   "status": "proved",
   "theorems": [
    "Fm2prof.Props.C178_kept",
    "Fm2prof.Props.C178_elsewhere"
   ],
   "note": "The directories for figures are assumed to be made; the log of the comparison itself is left out."
  },
  {
   "property": "C179",
   "status": "partial",
   "theorems": [
    "Fm2prof.Props.C179_tables_partial",
    "Fm2prof.Props.C179_figures_partial",
    "Fm2prof.Props.C179_exit_partial",
    "Fm2prof.Props.C179_curves_partial"
   ],
   "note": "For a first comparison in an output directory. C179_exit_partial gives the exit status 0 when the rating curves can be told apart along the routes; the figures are described for the exit status 0. Not described: names of branches with - or _ (C158), stations of a route with the same kilometre (C162_same_km_violated) or the same curve, 1D results of less than six days with routes (C160)."
  },
  {
   "property": "C180",
   "status": "partial",
   "theorems": [
    "Fm2prof.Props.C180_again_partial",
    "Fm2prof.Props.C180_stale_violated"
   ],
   "note": "Proved for the same results; for other results it is false (C180_stale_violated): the files of the first comparison are used."
  },
  {
   "property": "C181",
   "status": "partial",
   "theorems": [
    "Fm2prof.Props.C181_open",
    "Fm2prof.Props.C181_values",
    "Fm2prof.Props.C181_run",
    "Fm2prof.Props.C181_same_partial",
    "Fm2prof.Props.C181_stale_violated"
   ],
   "note": "C181_same_partial is for projects without polygon files; with them a cache of an earlier run is used although another file was set (C181_stale_violated)."
  },
  {
   "property": "C182",
   "status": "partial",
   "theorems": [
    "Fm2prof.Props.C182_printed_partial",
    "Fm2prof.Props.C182_relative_violated"
   ],
   "note": "Proved for absolute paths, printable values, and a map file that is a Path when there are polygon files. False for a relative output directory (C182_relative_violated)."
  },
  {
   "property": "C183",
   "status": "partial",
   "theorems": [
    "Fm2prof.Props.C183_run",
    "Fm2prof.Props.C183_definitions",
    "Fm2prof.Props.C183_locations",
    "Fm2prof.Props.C183_volumes",
    "Fm2prof.Props.C183_roughness_partial"
   ],
   "note": "For the roughness files the conditions of C98 are needed: edges in the three known sections and levels within 10^20 m."
  },
  {
   "property": "C184",
   "status": "proved",
   "theorems": [
    "Fm2prof.Props.C184_cover",
    "Fm2prof.Props.C184_order",
    "Fm2prof.Props.C184_readable"
   ],
   "note": "Where polygons with different labels overlap the order matters (example beside the theorems); the tool logs a warning then."
  },
  {
   "property": "C185",
   "status": "proved",
   "theorems": [
    "Fm2prof.Props.C185_territory",
    "Fm2prof.Props.C185_regions"
   ],
   "note": "Roughness files are not included: the levels of their tables are shared by all cross-sections (C25). The regions must not be named like the cross-section (C28_region_named_like_id_violated)."
  },
  {
   "property": "C186",
   "status": "proved",
   "theorems": [
    "Fm2prof.Props.C186_after_peak",
    "Fm2prof.Props.C186_not_rising"
   ],
   "note": "Runs lifted from C164, whose counterexamples (lakes, the mean velocity method) say why the conditions are there. The roughness tables have a line for each map and are not included."
  },
  {
   "property": "C187",
   "status": "proved",
   "theorems": [
    "Fm2prof.Props.C187_summerdike",
    "Fm2prof.Props.C187_minimum_width",
    "Fm2prof.Props.C187_points",
    "Fm2prof.Props.C187_extra_files",
    "Fm2prof.Props.C187_summerdike_definitions",
    "Fm2prof.Props.C187_minimum_width_definitions",
    "Fm2prof.Props.C187_points_definitions"
   ],
   "note": "File by file: the texts are equal for all write faults. For the definitions, which depend on the settings, what is read back is compared field by field. Both runs are assumed to succeed, because NaN from the optimiser ends the model's run."
  },
  {
   "property": "C188",
   "status": "proved",
   "theorems": [
    "Fm2prof.Props.C188_load",
    "Fm2prof.Props.C188_command",
    "Fm2prof.Props.C188_commands"
   ],
   "note": "Comments anywhere in any text; blank lines where no line is indented, because a blank line inside a value of several lines is part of the value (example beside the theorems); order for plain files with keys that differ."
  },
  {
   "property": "C189",
   "status": "partial",
   "theorems": [
    "Fm2prof.Props.C189_alone",
    "Fm2prof.Props.C189_apart_partial",
    "Fm2prof.Props.C189_elsewhere",
    "Fm2prof.Props.C189_kept",
    "Fm2prof.Props.C189_same_directory_violated",
    "Fm2prof.Props.C189_mixed_violated",
    "Fm2prof.Props.C189_cache_violated"
   ],
   "note": "Partial: holds for different output directories and cache files that are up to date or not shared. Violated otherwise: the check for results and the writing are not one step, so that two runs without --overwrite write over each other or leave a mixed file while both report success; and a run fails with JSONDecodeError when it reads the cache file that another run is writing. Assumes that input files do not change while runs go on."
  },
  {
   "property": "C190",
   "status": "partial",
   "theorems": [
    "Fm2prof.Props.C190_moved",
    "Fm2prof.Props.C190_results",
    "Fm2prof.Props.C190_stray_violated"
   ],
   "note": "Partial: everything in the directory of the project is as claimed. Violated elsewhere: loading a configuration file also makes an empty directory with the name of the output directory in the current directory. Assumes that mkdir succeeds and that the configuration file is plain."
  },
  {
   "property": "C191",
   "status": "partial",
   "theorems": [
    "Fm2prof.Props.C191_outcome",
    "Fm2prof.Props.C191_definitions",
    "Fm2prof.Props.C191_roughness",
    "Fm2prof.Props.C191_namesake_violated"
   ],
   "note": "Partial: proved when no region in which faces are found is called like a cross-section, blank names stay blank and, with regions, names have at most 99 characters. Violated when a region without cross-sections has the name of a cross-section."
  },
  {
   "property": "C192",
   "status": "partial",
   "theorems": [
    "Fm2prof.Props.C192_refused",
    "Fm2prof.Props.C192_files",
    "Fm2prof.Props.C192_history_partial",
    "Fm2prof.Props.C192_shown_partial",
    "Fm2prof.Props.C192_new_partial",
    "Fm2prof.Props.C192_window_violated",
    "Fm2prof.Props.C192_stale_violated",
    "Fm2prof.Props.C192_early_map_violated",
    "Fm2prof.Props.C192_settings_violated"
   ],
   "note": "Partial: proved when both times are set, the output directory holds no earlier tables and reading raises no exception. Violated otherwise: the window of the first table shown is kept, tables of earlier results are shown after a failed reading, an early request for the mapping of stations leaves an empty one, and paths and offset are ignored when tables exist."
  },
  {
   "property": "C193",
   "status": "proved",
   "theorems": [
    "Fm2prof.Props.C193_profiles",
    "Fm2prof.Props.C193_multiple",
    "Fm2prof.Props.C193_needs_polygons"
   ],
   "note": "The claim is about runs with polygons of the sections; C193_needs_polygons shows that it does not hold without them, where the roughness decides the sections."
  },
  {
   "property": "C194",
   "status": "partial",
   "theorems": [
    "Fm2prof.Props.C194_stored_partial",
    "Fm2prof.Props.C194_clash_violated"
   ],
   "note": "Partial: proved when no two requested locations share a name and none is called like the flow mask of another one; violated otherwise."
  },
  {
   "property": "C195",
   "status": "proved",
   "theorems": [
    "Fm2prof.Props.C195_files",
    "Fm2prof.Props.C195_definitions",
    "Fm2prof.Props.C195_summerdike",
    "Fm2prof.Props.C195_volumes"
   ],
   "note": ""
  },
  {
   "property": "C196",
   "status": "partial",
   "theorems": [
    "Fm2prof.Props.C196_areas",
    "Fm2prof.Props.C196_widths_partial",
    "Fm2prof.Props.C196_widths_violated"
   ],
   "note": "Flow areas proved; flow widths partial: proved up to one repair step (1 mm) for each level, and shown to be false without this allowance."
  },
  {
   "property": "C197",
   "status": "proved",
   "theorems": [
    "Fm2prof.Props.C197_geometry",
    "Fm2prof.Props.C197_volumes"
   ],
   "note": "2D volumes are not included: a pool deeper than the centre can have a negative volume (C73)."
  },
  {
   "property": "C198",
   "status": "partial",
   "theorems": [
    "Fm2prof.Props.C198_ids",
    "Fm2prof.Props.C198_counted",
    "Fm2prof.Props.C198_apart_partial",
    "Fm2prof.Props.C198_namesakes_violated"
   ],
   "note": "Violated when a name occurs twice: the lines share their faces and their id. For different names it holds."
  },
  {
   "property": "C199",
   "status": "proved",
   "theorems": [
    "Fm2prof.Props.C199_geometry",
    "Fm2prof.Props.C199_volumes"
   ],
   "note": "The flow width can only become larger with fewer maps: it is the smallest over the maps above."
  },
  {
   "property": "C200",
   "status": "partial",
   "theorems": [
    "Fm2prof.Props.C200_same_region_partial",
    "Fm2prof.Props.C200_overlap_violated",
    "Fm2prof.Props.C200_inner_first_violated",
    "Fm2prof.Props.C200_inner_last_violated"
   ],
   "note": "Violated where regions overlap: the last polygon counts for faces and the first one for locations, so that an inner region has no cross-sections in either order. For polygons that do not overlap it follows from C32 and C143."
  },
  {
   "property": "C201",
   "status": "proved",
   "theorems": [
    "Fm2prof.Props.C201_direction",
    "Fm2prof.Props.C201_reversed"
   ],
   "note": ""
  },
  {
   "property": "C202",
   "status": "proved",
   "theorems": [
    "Fm2prof.Props.C202_minimum_width"
   ],
   "note": ""
  },
  {
   "property": "C203",
   "status": "partial",
   "theorems": [
    "Fm2prof.Props.C203_volumes_violated",
    "Fm2prof.Props.C203_close_partial"
   ],
   "note": "Violated by every run: the volumes are those of the profile before the repairs, in which the tenth and the eleventh level are equal. The difference is bounded when widths do not shrink and are not below the minimum."
  },
  {
   "property": "C204",
   "status": "proved",
   "theorems": [
    "Fm2prof.Props.C204_points",
    "Fm2prof.Props.C204_eliminated",
    "Fm2prof.Props.C204_number"
   ],
   "note": ""
  },
  {
   "property": "C205",
   "status": "proved",
   "theorems": [
    "Fm2prof.Props.C205_geometry",
    "Fm2prof.Props.C205_volumes",
    "Fm2prof.Props.C205_widths"
   ],
   "note": "The optimiser may give anything in either run; depths of the nearest face are not negative (for the 1D flow volumes)."
  },
  {
   "property": "C206",
   "status": "proved",
   "theorems": [
    "Fm2prof.Props.C206_geometry",
    "Fm2prof.Props.C206_volumes"
   ],
   "note": "SkipMaps and LakeTimesteps are not negative. A face that gets wet between the two maps is left out: by at most a centimetre it would be taken for a lake at the later map only, see C175."
  },
  {
   "property": "C207",
   "status": "proved",
   "theorems": [
    "Fm2prof.Props.C207_smoother",
    "Fm2prof.Props.C207_needs_dry"
   ],
   "note": "FrictionweighingMethod is 0, as 1 always fails (C23). Printing with four significant digits is assumed to keep the order of numbers, and `np.interp` is modelled by the linear search, which is its result for levels that increase."
  },
  {
   "property": "C208",
   "status": "proved",
   "theorems": [
    "Fm2prof.Props.C208_margin"
   ],
   "note": "Both runs are given as successful. The base level is read as printed in full."
  }
 ]
}