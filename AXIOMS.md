# Axioms of each theorem

As printed by `#print axioms` for every theorem of `MANIFEST.json`. The prefix `Fm2prof.Props.` is left out.

## propext

`C04_identity_on_increasing`, `C05_greatest`, `C29_disjoint`, `C31_cross_sections`, `C58_window`, `C58_history`, `C58_unset_violated`.

## propext, Quot.sound

`C04_increasing_and_never_lowers`, `C04_idempotent`, `C07_used_maps`, `C09_lake_iff`, `C09_depth_correction`, `C11_unknown_method`, `C13_failure_changes_nothing`, `C13_success_applies_one_result`, `C13_switched_off`, `C13_switched_on`, `C16_short_lines`, `C20_below_crest`, `C22_order_independent`, `C23_dry_link_violated`, `C24_determined`, `C27_nearest`, `C27_defined_iff`, `C29_every_face_once`, `C29_areas_add_up`, `C30_classes_ordered`, `C31_nodes`, `C31_grid_points`, `C31_grid_points_defined`, `C31_consistent`, `C32_overlaps_reported`, `C34_from_same_stamp`, `C34_transparent_partial`, `C34_forced`, `C34_changed_polygons_violated`, `C37_transposition`, `C58_unset_partial`, `C59_rows`, `C59_empty`, `C59_short`, `C60_once`, `C62_clamped`, `C68_point`, `C68_selection`, `C70_route`, `C70_members`, `C70_nodup`, `C77_inner_points`, `C78_rule_file`, `C88_same_name_partial`, `C89_short_violated`, `C90_data_partial`, `C91_first`, `C149_flow_unused_violated`, `C159_differences_violated`, `C165_totals`, `C169_refused`, `C170_alluvial_partial`, `C170_nonalluvial_violated`.

## propext, Classical.choice, Quot.sound

`C01_accepted_iff`, `C01_kept_levels_increase`, `C01_rejected_is_below_accepted`, `C02_built_levels`, `C02_C03_pipeline_valid`, `C02_C03_C14_pipeline_nonempty`, `C02_C03_exported_profile_valid`, `C03_requirements_give_valid_profile`, `C03_requirements_fail_iff`, `C04_least`, `C04_bounded`, `C05_built`, `C05_nondecreasing_minorant`, `C06_points_below_first_level`, `C06_widths_below_first_level`, `C07_arrays_aligned`, `C08_built`, `C08_volume_is_area_times_length`, `C08_starts_at_zero_and_grows`, `C08_flow_le_total`, `C09_counts_iff`, `C09_counts_from_then_on`, `C10_default_method_partial`, `C10_default_method_missing`, `C10_legacy_method`, `C10_dry_never_conveys`, `C10_thresholds_monotone`, `C10_missing_velocity_violated`, `C11_volumes_physical`, `C11_fitted_values_kept`, `C11_exported_areas`, `C12_between_zero_and_one`, `C12_strictly_increasing`, `C12_half_in_the_middle`, `C12_at_most_below_crest`, `C12_at_least_above_top`, `C12_odds`, `C12_corrected_volumes`, `C13_fails_iff`, `C13_initial_values`, `C14_sub_profile`, `C14_unchanged`, `C14_at_most`, `C14_endpoints_kept`, `C14_single_point_empties`, `C15_exact`, `C15_nested`, `C15_kept_more_important`, `C15_ties_drop_more`, `C16_terminates_and_eliminates`, `C17_sections_cover`, `C17_sum`, `C17_moves_no_more_than_needed`, `C17_defined_iff`, `C18_negative_width_violated`, `C18_nonnegative_partial`, `C19_areas_partial`, `C19_named_labels_ignored`, `C19_named_labels_violated`, `C20_value_partial`, `C20_named_labels_violated`, `C20_unknown_beds_violated`, `C21_relative_squared_error`, `C21_nonnegative`, `C21_zero_iff`, `C22_table_of_means`, `C22_defined_iff`, `C22_between`, `C23_weighted_mean_partial`, `C23_between_partial`, `C23_always_fails_violated`, `C24_interpolation`, `C24_own_levels`, `C24_between`, `C25_uniform_levels`, `C25_identical_levels`, `C25_last_step`, `C25_success_reported_rightly`, `C26_branches`, `C26_levels`, `C26_definitions`, `C26_rectangular`, `C28_faces_in_regions`, `C28_edges_in_regions_partial`, `C28_regions_without_cross_section_partial`, `C28_fails_iff`, `C28_region_named_like_id_violated`, `C28_edges_violated`, `C30_no_variance`, `C30_split`, `C30_defined_iff`, `C32_accepted_iff`, `C32_only_sections_change`, `C32_known_names_partial`, `C32_capitals_violated`, `C33_complete`, `C33_accepted_iff_partial`, `C33_multi_part_violated`, `C35_read_iff`, `C35_columns_aligned`, `C35_errors`, `C35_legacy_header_violated`, `C35_blank_line_violated`, `C36_read_back`, `C36_precision`, `C36_exact`, `C36_generated`, `C38_selection`, `C39_keys_kept`, `C39_history_partial`, `C39_set_one`, `C39_debug_violated`, `C40_loaded`, `C40_any_text`, `C40_same_texts`, `C40_order`, `C40_succeeds`, `C41_idempotent`, `C42_restored`, `C42_loads`, `C43_round_trip`, `C43_by_id`, `C43_precision`, `C44_round_trip`, `C44_unknown_name`, `C45_levels_increase`, `C46_increasing_partial`, `C46_equal_levels_violated`, `C47_one_block_each`, `C47_references`, `C48_columns_partial`, `C48_flow_area_violated`, `C48_field_count_violated`, `C49_refused`, `C49_overwrites`, `C49_no_results`, `C50_refused_again`, `C50_exported`, `C50_kept`, `C51_others_partial`, `C51_never_raises`, `C51_contents`, `C51_violated`, `C52_in_order`, `C52_first_failure`, `C53_returns_partial`, `C53_raises`, `C53_raises_violated`, `C53_true_violated`, `C54_stopped`, `C54_goes_on`, `C55_sum`, `C55_inner`, `C55_ends`, `C55_positive`, `C55_branch_total`, `C56_kept_points`, `C56_lengths`, `C56_conserved`, `C56_accepted_partial`, `C56_three_points_violated`, `C56_single_point_violated`, `C56_unknown_rule`, `C57_inner_point`, `C57_end_points`, `C57_remaining_partial`, `C57_unknown_violated`, `C57_duplicate_violated`, `C57_capitals_violated`, `C59_file`, `C59_column`, `C60_bins_partial`, `C60_label_violated`, `C60_last_violated`, `C61_labelled`, `C61_consequences`, `C61_unique`, `C63_lookup`, `C64_counts_partial`, `C64_second_run_violated`, `C64_second_project_violated`, `C65_centre_levels`, `C65_missing_only_if_always_dry`, `C65_at_or_above_bed`, `C66_areas_and_volumes`, `C66_wet_area_ge_part`, `C67_flow_le_total_partial`, `C67_flow_exceeds_total_violated`, `C68_faces`, `C68_edges`, `C68_files_partial`, `C68_nan_violated`, `C69_round_trip`, `C69_write_refused`, `C69_read_refused`, `C69_no_points`, `C69_other_files`, `C70_measuring`, `C71_first_row_with_volume`, `C71_no_volume`, `C72_parse`, `C72_split`, `C73_volumes_nonnegative_partial`, `C73_negative_volume_violated`, `C74_rising_water_partial`, `C74_falling_water_violated`, `C75_not_empty_partial`, `C75_single_level_violated`, `C76_own_points_partial`, `C76_accepted`, `C76_previous_branch_violated`, `C76_extra_id_violated`, `C77_ends_partial`, `C77_two_points_violated`, `C79_read_back_partial`, `C79_capitals_violated`, `C79_after_run_partial`, `C80_rows`, `C80_refused_iff`, `C81_rectangular`, `C82_rows`, `C83_rows`, `C84_rejected_partial`, `C84_violated`, `C85_restored_partial`, `C85_violated`, `C86_has_directory`, `C86_set_partial`, `C86_violated`, `C87_fresh_partial`, `C87_violated`, `C88_violated`, `C89_moments_partial`, `C90_violated`, `C91_discharges_partial`, `C91_violated`, `C92_common`, `C92_bias_mae`, `C92_offset`, `C92_highest`, `C92_highest_order`, `C93_complete_partial`, `C93_critical_violated`, `C93_own_partial`, `C94_only_own_partial`, `C94_violated`, `C95_violated`, `C96_envelopes_partial`, `C96_violated`, `C97_profiles`, `C97_points`, `C97_locations`, `C98_no_roughness_violated`, `C98_files_partial`, `C99_volumes`, `C100_faces`, `C100_sums`, `C101_selection`, `C102_skipping`, `C103_local`, `C104_levels_partial`, `C104_roughness`, `C104_floodplain_violated`, `C104_run_partial`, `C105_scale`, `C105_definitions`, `C105_run`, `C106_numbering_partial`, `C106_mean_velocity_violated`, `C106_run_partial`, `C106_two_nearest_violated`, `C107_dry_partial`, `C107_missing_velocity_violated`, `C108_axes`, `C108_run`, `C109_again_partial`, `C109_midnight_violated`, `C110_fresh_partial`, `C110_stale_violated`, `C110_offset_violated`, `C111_writes`, `C111_between_partial`, `C111_discharges_violated`, `C111_map_violated`, `C112_times`, `C112_refused`, `C112_zone_violated`, `C113_matched_partial`, `C113_numbers_violated`, `C113_midnight_violated`, `C114_both_partial`, `C114_none_partial`, `C114_only_2d_violated`, `C114_only_1d_violated`, `C115_first`, `C115_again_partial`, `C115_stale_violated`, `C115_wrong_violated`, `C116_ignored_violated`, `C116_inside_partial`, `C116_wrong_violated`, `C117_first_partial`, `C117_written_partial`, `C117_times`, `C117_kept_violated`, `C117_wrong_violated`, `C118_statistics`, `C118_computed`, `C119_table`, `C119_header`, `C119_files_partial`, `C119_suffix_violated`, `C119_columns_violated`, `C120_summary`, `C121_capitals_partial`, `C121_small_violated`, `C122_edited_partial`, `C122_created_partial`, `C122_dotted_violated`, `C123_only_partial`, `C123_history`, `C123_replaced_violated`, `C124_no_results_partial`, `C124_missing_violated`, `C125_status_partial`, `C125_failed_violated`, `C126_opened_partial`, `C126_sections_violated`, `C126_text_violated`, `C127_results_partial`, `C127_log_violated`, `C128_kept`, `C129_widths`, `C130_levels`, `C130_ends`, `C131_read_within`, `C131_roughness_partial`, `C131_dry_violated`, `C132_branches_partial`, `C132_other_names_violated`, `C132_after_run`, `C133_one_branch_partial`, `C133_branches_violated`, `C134_plot_all_violated`, `C135_no_sections_violated`, `C135_figure_partial`, `C136_roughness_curves`, `C136_kept`, `C136_failed`, `C136_others`, `C136_saved`, `C136_distinct`, `C137_labels_partial`, `C137_flow_violated`, `C138_profile`, `C138_lines`, `C139_range_partial`, `C139_branches_violated`, `C139_capitals_violated`, `C140_usable`, `C141_parameters`, `C141_input_files`, `C142_no_effect_violated`, `C142_wrong_type_violated`, `C142_switch_text_violated`, `C143_locations`, `C143_sections`, `C143_regions`, `C143_empty_regions`, `C143_consistent`, `C144_edited_sections_violated`, `C144_edited_regions_violated`, `C145_refused_partial`, `C145_raises_violated`, `C146_no_region_violated`, `C147_unknown_section_violated`, `C148_no_worse_than_start`, `C148_exact`, `C149_no_storage_violated`, `C149_flow_spoiled_violated`, `C149_split_violated`, `C150_without_polygons_partial`, `C150_text_violated`, `C150_set_text_violated`, `C151_faces`, `C151_edges`, `C151_consistent`, `C152_readable_iff_partial`, `C152_incomplete_raises`, `C152_unused_violated`, `C152_face_roughness_violated`, `C153_fill_value_violated`, `C153_marks_ignored_violated`, `C154_formats_partial`, `C154_unknown_violated`, `C154_test_roughness_violated`, `C155_lines_partial`, `C155_short_violated`, `C155_other_times_violated`, `C156_values_partial`, `C156_unknown`, `C156_same_km_violated`, `C156_same_levels_violated`, `C157_heatmap_partial`, `C157_window_violated`, `C157_same_violated`, `C157_curves_partial`, `C158_files_partial`, `C158_saved`, `C158_statistics_violated`, `C158_station_violated`, `C158_title_violated`, `C159_shares_partial`, `C159_series`, `C159_missing_violated`, `C160_all_partial`, `C160_no_routes_violated`, `C160_short_violated`, `C161_time_partial`, `C161_rating`, `C161_word_violated`, `C162_lines_partial`, `C162_same_km_violated`, `C163_generated_partial`, `C163_no_rules`, `C163_error`, `C163_missing_rules_violated`, `C163_torn_violated`, `C164_not_rising_partial`, `C164_after_peak`, `C164_lake_violated`, `C164_mean_velocity_violated`, `C165_definitions`, `C165_volumes`, `C165_divided_partial`, `C165_fine_divides`, `C165_flow_violated`, `C166_writes`, `C166_overwrite`, `C166_early_partial`, `C166_torn_violated`, `C167_listed_partial`, `C167_unlisted_violated`, `C167_never_violated`, `C168_writes`, `C168_repeat_partial`, `C168_torn_violated`, `C169_share_partial`, `C169_exact`, `C169_empty_violated`, `C171_settings`, `C171_run`, `C171_no_input`, `C171_profiles`, `C172_sections_partial`, `C172_regions_partial`, `C172_missing_violated`, `C173_history_partial`, `C173_shared_violated`, `C174_repeat_partial`, `C174_torn_violated`, `C175_widths_partial`, `C175_flow_partial`, `C175_shallow_violated`, `C176_volumes`, `C176_flat`, `C177_definitions`, `C178_kept`, `C178_elsewhere`, `C179_tables_partial`, `C179_figures_partial`, `C179_exit_partial`, `C179_curves_partial`, `C180_again_partial`, `C180_stale_violated`, `C181_open`, `C181_values`, `C181_run`, `C181_same_partial`, `C181_stale_violated`, `C182_printed_partial`, `C182_relative_violated`, `C183_run`, `C183_definitions`, `C183_locations`, `C183_volumes`, `C183_roughness_partial`, `C184_cover`, `C184_order`, `C184_readable`, `C185_territory`, `C185_regions`, `C186_after_peak`, `C186_not_rising`, `C187_summerdike`, `C187_minimum_width`, `C187_points`, `C187_extra_files`, `C187_summerdike_definitions`, `C187_minimum_width_definitions`, `C187_points_definitions`, `C188_load`, `C188_command`, `C188_commands`, `C189_alone`, `C189_apart_partial`, `C189_elsewhere`, `C189_kept`, `C189_same_directory_violated`, `C189_mixed_violated`, `C189_cache_violated`, `C190_moved`, `C190_results`, `C190_stray_violated`, `C191_outcome`, `C191_definitions`, `C191_roughness`, `C191_namesake_violated`, `C192_refused`, `C192_files`, `C192_history_partial`, `C192_shown_partial`, `C192_new_partial`, `C192_window_violated`, `C192_stale_violated`, `C192_early_map_violated`, `C192_settings_violated`, `C193_profiles`, `C193_multiple`, `C193_needs_polygons`, `C194_stored_partial`, `C194_clash_violated`, `C195_files`, `C195_definitions`, `C195_summerdike`, `C195_volumes`, `C196_areas`, `C196_widths_partial`, `C196_widths_violated`, `C197_geometry`, `C197_volumes`, `C198_ids`, `C198_counted`, `C198_apart_partial`, `C198_namesakes_violated`, `C199_geometry`, `C199_volumes`, `C200_same_region_partial`, `C200_overlap_violated`, `C200_inner_first_violated`, `C200_inner_last_violated`, `C201_direction`, `C201_reversed`, `C202_minimum_width`, `C203_volumes_violated`, `C203_close_partial`, `C204_points`, `C204_eliminated`, `C204_number`, `C205_geometry`, `C205_volumes`, `C205_widths`, `C206_geometry`, `C206_volumes`, `C207_smoother`, `C207_needs_dry`, `C208_margin`.
