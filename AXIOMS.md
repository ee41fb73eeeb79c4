# Axioms of the theorems in MANIFEST.json

Written by `tools/axioms.py` from `#print axioms`. All are axioms of Lean itself; the project adds none.

## propext, Quot.sound (259 theorems)

C01_again, C01_round_trip_iff, C02_lines_clean, C02_stable, C02_newline_only, C03_find_line_error, C04_cleaner_shape, C05_find_ind_error, C06_none_and_head, C07_dimensions_partial, C07_rectangular_partial, C08_replaced_functional, C08_replace_partial, C08_frame, C08_violated, C10_again, C10_pieces, C11_setup, C11_get_logger, C11_unknown_level, C12_words_preserved, C14_error_iff, C14_error_iff_nonneg, C17_csv, C17_html, C17_page, C18_violated, C19_missing, C20_bad_number, C20_complete, C21_algebra, C23_other_file_violated, C24_directory, C24_no_directory, C25_read, C41_peak, C41_empty, C41_any_shape, C41_errors, C42_normalise, C44_algebra, C45_rows, C49_first_partial, C49_path_violated, C50_default_partial, C51_error, C52_no_bounds_violated, C55_zero_violated, C56_plane_partial, C57_line, C57_point, C58_columns, C59_violated, C62_count_partial, C64_file_partial, C66_empty, C66_single, C67_version, C68_missing_end_violated, C71_retrieve, C71_first_index, C72_missing, C73_error, C74_error, C82_valid, C83_words, C87_get_cell, C87_queries, C87_material_exists, C91_error, C92_absent_partial, C94_count, C96_comments, C98_time_bins_total, C98_no_energy, C100_blank_line_violated, C104_cell_violated, C104_other_cells_violated, C106_values_partial, C106_no_default_violated, C107_errors, C108_rows, C108_errors, C108_none, C109_only_inside, C109_success_partial, C109_collapse_violated, C109_folder, C109_folder_made, C109_copy, C109_in_place_violated, C111_main, C129_violated, C129_integers_partial, C129_read_violated, C130_violated, C130_lines_partial, C133_error_partial, C133_empty_line_violated, C137_thermal, C137_no_thermal, C138_surface_order_violated, C139_user_bins_violated, C141_empty, C146_time_slice, C146_success, C146_errors, C151_current_violated, C151_heating_violated, C151_surfaces_angles, C151_no_bins, C153_given, C154_first_violated, C154_over_violated, C154_plain_violated, C154_table_violated, C154_refused, C155_one_error_violated, C155_raw, C160_param, C165_absent, C172_violated, C175_mismatch, C175_plane, C175_single_violated, C176_missing, C177_counts_partial, C177_violated, C180_numpy_violated, C180_zero_violated, C182_curves, C183_succeeds, C187_empty_violated, C191_numbers, C199_relative, C199_absolute, C199_rows, C199_refused, C199_not_readable, C200_read, C200_names_partial, C202_single_partial, C210_violated, C219_detector_violated, C219_surfaces_violated, C219_same_violated, C220_slice, C220_point, C220_line, C220_zeros, C222_label_violated, C224_isomer_violated, C225_unknown, C225_column_violated, C229_level, C236_default_partial, C236_cooling_violated, C236_flux_violated, C237_columns_partial, C238_empty_violated, C238_lost_violated, C241_get_lines, C241_printlib, C241_xsdir, C241_ptrac, C241_mcnp_output, C241_mcnp_input, C241_run_log, C241_fispact_input, C241_meshtally, C241_config, C242_write_lines, C242_text_replace, C242_csv_out, C242_html_f4_tab_out, C242_output_points, C242_lost_points, C242_reduce_ofile, C242_fluxes, C242_tally_lines, C242_activation, C242_copy, C243_others_partial, C243_changed_violated, C243_failed_violated, C243_again, C243_result, C246_point_partial, C246_line_partial, C246_slice_partial, C246_array_partial, C248_tab_violated, C248_cells_partial, C254_numbers, C257_point, C257_line, C257_slice, C257_bounds, C257_sum, C257_array, C265_partial, C266_few_violated, C267_filters, C267_material, C268_commute, C268_lines, C268_line_order, C272_point_partial, C272_line_partial, C272_counts_partial, C272_array_partial, C274_mesh, C274_xsdir, C274_plot, C274_printlib_partial, C274_ptrac_partial, C274_output_partial, C277_printlib_partial, C277_reduce_partial, C277_xsdir_violated, C278_ptrac_partial, C278_mesh_partial, C278_mesh_violated, C278_tables_violated, C278_output_violated, C279_directory_partial, C279_thermal_partial, C279_twice_violated, C280_xsdir, C280_ptrac, C280_printlib, C280_log, C283_filters, C283_scope, C283_above, C283_lines, C286_writers_partial, C286_refused_violated, C287_lost_partial, C287_empty_violated, C287_reduce, C293_off, C293_same_partial, C293_unwritable_violated, C294_lost, C295_moved, C297_fispact_violated, C298_tally_partial, C298_output_partial, C298_cells, C298_tallied, C298_order_violated, C303_numbers, C304_comma_violated, C305_lost_partial, C308_thermal_violated, C308_directory_violated, C319_missing, C320_cell_partial

## propext (90 theorems)

C01_frame, C07_empty_violated, C07_violated, C08_carriage_return_violated, C11_again, C11_never_duplicates, C13_violated, C15_bare_name_violated, C17_single, C18_tests_violated, C21_rejects, C23_violated, C26_violated, C27_violated, C28_equality_partial, C30_header, C34_upper_bound, C34_rejected, C37_rejected, C38_write_errors, C46_units, C79_violated, C85_block_violated, C85_shared_importance_violated, C86_title_digit, C88_blank_line_violated, C88_separator_violated, C88_reflecting_limit, C90_documented_flags_violated, C90_starred_tally_lost, C91_limits, C106_unknown, C106_file, C106_no_object, C109_copy_errors, C110_ignored, C110_violated, C111_output_missing, C111_input_missing, C111_files_entry_violated, C111_code, C136_bare_comment_violated, C144_never_reports_violated, C144_missing_partial, C145_no_cells, C167_missing, C168_errors, C169_second_mx_violated, C170_text, C171_violated, C178_read, C179_violated, C182_error, C182_file, C183_made, C183_again, C183_file, C184_bound, C184_greatest, C184_error, C188_positive_partial, C192_file, C193_violated, C193_error_partial, C200_names_violated, C200_levels, C217_starred_violated, C242_html_output, C247_importance_violated, C256_bare_violated, C260_digit_violated, C261_violated, C262_violated, C264_continued_violated, C265_violated, C274_input_violated, C274_fispact_input, C274_reduce, C274_lost, C274_printlib_violated, C274_ptrac_violated, C274_ptrac_history_violated, C274_output_empty_violated, C274_output_time_violated, C280_lines, C287_lost_same, C287_figure, C293_others_kept, C297_version_violated, C309_datapath_partial

## propext, Classical.choice, Quot.sound (846 theorems)

C03_find_line_ok, C03_find_line_cases, C04_clean_and_split, C04_cleaner, C05_find_ind_ok, C06_first_positions, C07_cases, C09_laws, C09_meaning, C09_not_transitive, C10_find_tabs, C10_replace_tab, C10_no_tabs_left, C13_prefix_violated, C13_token_violated, C13_exact, C13_width_partial, C13_width_fits_partial, C14_shape, C15_first_token_violated, C15_shape, C15_round_trip_partial, C15_first_token_fits, C15_material, C16_mismatch, C16_rows, C17_incomplete, C18_lines_partial, C19_tail, C19_idempotent, C21_filters, C21_nan, C22_table, C22_only_complete_tables, C23_errors_partial, C25_awr, C26_path_violated, C26_datapath_partial, C27_decode_partial, C29_mean, C31_pairs_partial, C31_violated, C32_chains_partial, C32_linear_partial, C32_violated, C33_elements, C33_symbols, C34_bin, C34_outside, C34_total_monotone, C35_tables, C35_ranges, C35_names, C36_domain, C36_vector, C37_reverse_partial, C37_total_partial, C37_violated, C37_not_ascending_violated, C38_709_partial, C38_violated, C38_rejected, C39_widths, C39_positive, C40_mid_points, C40_increasing, C42_abs_errors, C43_reduce, C44_filters, C44_presence, C44_read, C45_fractions, C45_zaid_injective, C47_decision, C47_monotone, C48_inventory_partial, C49_violated, C50_chart_partial, C50_violated, C50_error_violated, C50_oganesson_violated, C51_mids, C51_exact, C51_count, C51_rounding_unique, C51_rounding, C52_uniform_partial, C52_violated, C52_average_partial, C52_numbers_violated, C52_no_mids_violated, C53_nearest, C54_unequal_violated, C54_unequal_before_violated, C54_uniform_partial, C54_violated, C55_filter_partial, C55_violated, C56_values_partial, C56_violated, C56_transposed_violated, C56_no_errors_violated, C56_ragged_violated, C56_right_only_if_symmetric, C57_bins, C58_bands, C59_sum_partial, C59_refused_partial, C60_bound_partial, C60_violated, C61_array_partial, C61_faithful_partial, C61_violated, C62_violated, C63_index, C63_index_error, C63_next, C64_time_zero_violated, C64_all_partial, C64_violated, C64_violated_total, C65_select_partial, C65_violated, C66_uniform, C66_equal, C68_summary_block_partial, C68_all_violated, C69_time_columns_partial, C69_bad_argument, C69_year_length_violated, C69_overwritten_base_violated, C69_days_violated, C69_hours_violated, C70_summary, C70_total, C72_composition, C72_error, C73_spectrum, C74_inventory, C74_names, C75_steps, C75_form, C76_parameter, C76_error, C77_read_mass, C77_unique, C78_blocks, C78_error, C79_eighty_violated, C79_reports_from_80, C79_long_lines_partial, C80_inline, C80_inline_comment, C80_full_line, C81_card_lines, C81_absent, C81_cases, C82_mode_none, C82_mode, C82_mode_blank, C83_material, C83_errors, C83_blank_around_equals, C84_undefined_material, C84_undefined_violated, C84_defined_nonempty_partial, C85_lines_violated, C85_importance_lines_partial, C85_surfaces_lost_violated, C86_title_digit_any, C86_one_line_cells, C88_surfaces_partial, C88_unknown_type_partial, C88_blanks_before_violated, C88_blanks_behind_violated, C89_violated, C89_no_comment_partial, C90_tally_partial, C90_undocumented_flags_partial, C90_tal_type, C91_material_numbers, C91_tally_numbers, C92_violated, C93_numbers_partial, C93_long_numbers_violated, C94_index, C94_last, C94_term, C95_final_results, C95_no_header, C96_fatal, C97_pairs, C97_errors, C98_time_bins, C98_energy_bins, C99_cells, C99_surfaces, C99_same, C99_surface_zero, C99_cell_zero, C100_lists_partial, C100_index_error, C100_no_blank_violated, C101_cells_mixed_violated, C101_last_cell_partial, C102_tables, C103_position, C103_position_error, C103_result_partial, C103_result_error, C103_blanks_violated, C104_cell_two_partial, C104_energy_partial, C105_run_date_partial, C105_run_date_violated, C105_version, C107_selection, C109_cell_folder, C109_nested_raises, C109_missing_files, C109_setup_succeeds, C110_default_partial, C111_fatal, C112_value, C112_zero_normal, C112_minimal, C112_zero_iff, C112_scale, C113_defined, C113_not_on_plane_violated, C113_origin_partial, C114_distance_partial, C114_intersecting, C114_first_component_violated, C114_opposite_violated, C114_argument_violated, C115_defined, C115_range, C115_cosine, C115_symmetric, C115_scale, C115_right_angle, C115_zero_angle, C116_circle, C116_defined_partial, C116_other_side_violated, C117_line_partial, C117_parallel, C117_horizontal_line_violated, C118_points, C118_distances, C118_axis, C118_add, C118_origin_partial, C118_centre_violated, C118_full_turn_violated, C119_translate, C119_differences, C120_disc, C120_ball, C120_cylinder, C120_cone, C120_flat_cone, C120_derivatives, C120_negative, C121_spherical_shell_measure, C121_cyl_shell_measure, C121_zero, C121_additive, C121_errors, C122_cylinder, C122_cone, C122_monotone, C122_flat, C123_partial, C123_zero_leg_violated, C124_plane, C124_plane_error, C124_plane_reversed, C124_sphere, C124_sphere_error, C124_gq, C124_gq_sphere, C124_gq_plane, C125_solutions, C125_missed, C125_negative, C125_project, C126_cylindrical_partial, C126_spherical_partial, C126_cylindrical_spherical, C126_spherical_cylindrical, C126_triangle, C126_x_zero_violated, C126_origin_nan, C126_negative, C127_line, C127_least_squares, C128_value, C128_metric, C128_midpoint, C128_midpoint_unique, C131_series, C131_rejected, C132_old_version_violated, C132_old_version_partial, C133_dominant, C133_any_violated, C134_time_step, C134_fields, C135_paths, C135_fields, C136_bare_violated, C136_comment_line_partial, C138_single_partial, C139_energy_partial, C139_energy_time_partial, C140_general, C141_blocks, C141_gap, C141_rows_differ, C142_single_values, C143_values_partial, C143_skipped_violated, C145_success, C147_curves, C147_total, C147_success, C147_empty, C147_errors, C147_no_targets, C147_limits, C147_upper, C148_given, C148_single_partial, C148_two_violated, C148_window, C148_far_violated, C149_curves_partial, C149_single_partial, C149_total_violated, C149_targets_violated, C149_cut_violated, C150_cells, C150_shape_violated, C150_late_violated, C151_keys_violated, C151_density_partial, C151_success_partial, C151_angles_partial, C151_single_number, C151_mismatch, C151_kinds, C152_length_violated, C152_bars_partial, C152_drawn_partial, C152_negative_violated, C152_bars_violated, C152_tables_violated, C152_no_objects_violated, C152_angles_violated, C153_auto_partial, C153_hidden_violated, C153_other_violated, C153_all_violated, C154_ratio_partial, C155_runs_partial, C155_refused_partial, C156_constants, C157_exact, C157_measured_partial, C157_activity_violated, C157_ms_violated, C157_zero, C158_points_partial, C158_label, C158_zero_violated, C158_later_violated, C158_lines_violated, C158_arguments, C158_cooling_missing, C158_hidden_violated, C159_gamma, C160_wedges_partial, C160_share_violated, C160_shares_violated, C161_curves, C161_errors, C162_table101, C162_errors, C162_rows, C163_table60, C164_angles, C165_areas_partial, C165_more_violated, C166_tests, C167_file, C168_file, C169_further_mx_violated, C169_cards_partial, C169_card_names, C169_card_absent, C170_type_partial, C170_kcode_violated, C170_unknown, C173_tally, C173_surface, C174_violated, C174_lines_partial, C175_boundary_violated, C175_request_violated, C175_cells_partial, C175_limits_violated, C175_nonuniform_violated, C175_title_violated, C175_create, C176_bars, C176_range, C180_again_partial, C180_again_violated, C180_half_partial, C185_steps_partial, C185_violated, C186_text, C187_rows, C187_convert_partial, C187_short_violated, C188_violated, C189_inside_violated, C189_negated_partial, C189_violated, C189_sense_violated, C190_lines_partial, C190_violated, C194_cell, C194_material, C195_section, C195_last_line, C195_fields, C195_other_types, C195_reader, C195_unfinished, C196_surfaces, C196_single, C197_cells, C198_surfaces, C198_single, C199_text, C200_decided, C200_order, C200_unlisted, C200_u230_violated, C201_pairs_violated, C201_leading_partial, C202_continued_violated, C203_layer_violated, C203_exact_partial, C203_seven_fifths, C204_time_violated, C204_energies_violated, C204_times_partial, C205_rows_violated, C205_rows_partial, C206_cell_partial, C206_lone_bracket_violated, C206_adjoining_brackets_violated, C206_union_sign_violated, C207_comment_number_violated, C207_comment_word_violated, C207_comment_imp_violated, C207_partial, C207_comment_lost_violated, C208_blank_violated, C208_equals_blank_violated, C208_shared_violated, C208_partial, C209_parameter_values_violated, C209_partial, C210_like_violated, C211_data_card_violated, C211_surface_partial, C211_indented_lost_violated, C211_partial, C212_material_violated, C212_ampersand_digit_violated, C212_ampersand_dropped_violated, C212_partial, C213_default_bins_violated, C213_partial, C214_reflecting_violated, C214_second_entry_violated, C214_periodic_violated, C214_points_violated, C214_partial, C215_data_card_violated, C215_partial, C216_particles_violated, C216_partial, C217_ring_violated, C217_file_violated, C217_partial, C218_physical, C218_inverse, C218_band, C218_labels, C219_objects_partial, C219_given_partial, C219_angles_partial, C219_discarded_violated, C219_two_violated, C219_axis, C220_blank_violated, C220_rows_partial, C220_array, C221_cooling, C221_cooling_partial, C221_no_cooling_violated, C221_points_partial, C221_label_partial, C221_label_violated, C221_names_violated, C222_total_partial, C222_total_violated, C223_refused, C223_view, C223_scale_partial, C223_smallest_violated, C223_reversed_violated, C223_default, C223_default_shown, C224_ground_partial, C224_zero_violated, C225_pies_partial, C226_drawn_partial, C226_inactive_violated, C227_two_letters_partial, C227_blank_violated, C228_rows_violated, C228_shape_violated, C228_width_violated, C228_equal_partial, C228_single_violated, C228_limit_partial, C229_name, C229_first_partial, C229_mass_violated, C230_coordinates, C231_particle_partial, C231_cell_violated, C231_single_violated, C232_shifted_partial, C232_violated, C233_all_partial, C233_positions_violated, C233_entries_violated, C234_header, C235_step_violated, C235_active_violated, C235_file_violated, C235_summary_violated, C235_texts_partial, C236_output_violated, C237_values_violated, C238_columns_partial, C239_complete, C239_outside, C239_succeeds, C239_again, C240_shape, C240_time_slice, C240_energy_slice_partial, C240_heat_map_partial, C240_no_total_violated, C240_read_partial, C241_fispact_output, C242_fluxes_program, C244_mean_partial, C244_none_violated, C245_point_partial, C245_line_partial, C245_slice_partial, C245_apart_partial, C245_two_voxels_violated, C246_order_violated, C247_data_partial, C247_surfaces_partial, C247_cells_partial, C247_input_partial, C248_card_partial, C248_material_partial, C248_tally_partial, C248_numbers_partial, C248_surfaces_partial, C248_input_partial, C249_read_partial, C249_suffix_violated, C249_isomer_violated, C250_points_partial, C250_plane_partial, C250_sphere_partial, C250_circle_partial, C250_line_partial, C250_planes_partial, C250_rotate_partial, C250_rotate_violated, C250_segment_violated, C251_areas_partial, C251_volumes_partial, C251_points_partial, C251_sides_partial, C251_meet_partial, C251_coordinates_partial, C251_slope_partial, C251_slope_violated, C251_segment_violated, C252_points_partial, C252_sides_partial, C252_meet_partial, C252_line_partial, C252_planes_partial, C252_planes_violated, C253_tallies_partial, C253_file_partial, C253_file_violated, C253_other_end_violated, C254_card, C254_data, C254_input, C255_cells, C255_surfaces, C255_input, C256_data_partial, C256_blocks, C256_input_partial, C258_zeros, C258_peak, C258_weights, C258_pie, C258_ratio, C258_cut, C259_point_partial, C259_line_partial, C259_slice_partial, C259_mids_partial, C259_mids_violated, C259_uniform_violated, C259_energy_violated, C259_peak, C259_spectrum, C259_bins, C260_title_partial, C260_number_violated, C260_blank_violated, C261_partial, C262_refused_partial, C263_file, C263_tally, C263_numbers, C264_lines_partial, C264_file_partial, C266_line, C266_default, C266_input_partial, C267_inventory, C267_composition, C267_oos, C267_notOos, C267_limits, C267_series, C269_append, C269_swap, C269_file, C269_mean, C270_cells, C270_surfaces, C270_card, C270_material, C270_tally, C271_data_partial, C271_tight_violated, C272_slice_violated, C272_array_violated, C273_order_partial, C273_files_partial, C273_select_partial, C273_energy_violated, C273_last_violated, C274_input_partial, C274_fispact_partial, C274_fispact_mass_violated, C274_fispact_version_violated, C275_point_partial, C275_circle_partial, C275_planes_partial, C275_line_partial, C275_angle_violated, C275_distance_violated, C275_circle_violated, C275_segment_violated, C276_pairs_partial, C276_line_partial, C276_planes_violated, C276_segment_violated, C277_fispact_partial, C277_ptrac_violated, C277_mesh_violated, C277_output_violated, C278_xsdir_partial, C279_weights_partial, C279_lines_partial, C280_fispact, C280_output, C280_input, C280_mesh_violated, C281_partial, C281_scale, C281_violated, C282_plane, C282_segment, C282_planes_partial, C282_planes_violated, C282_ray, C282_missed, C282_sphere, C282_project, C282_circle, C282_line, C282_solids, C282_coordinates, C283_present, C283_curve_partial, C283_chart_partial, C283_material, C283_both_violated, C284_decay, C284_limits, C284_steps, C285_fewest_partial, C285_exact_violated, C286_readers_partial, C286_same, C287_readers, C288_cells_violated, C288_surfaces_violated, C288_materials_violated, C288_tallies_violated, C288_listed_partial, C288_tallies_listed_partial, C289_swap_partial, C289_three_partial, C289_order_partial, C289_real, C289_values_partial, C289_rows_violated, C290_points, C290_middle, C290_plane, C290_sense_plane, C290_sense_plane_sharp, C290_sense_sphere, C290_hypotenuse_partial, C290_hypotenuse_violated, C291_wider, C292_order, C292_neighbours, C292_near, C293_files, C293_own_violated, C294_readers, C294_fluxes, C294_reduce, C295_replaced, C295_first, C295_removed, C295_inserted, C295_behind, C296_mcnp, C296_fispact, C297_mcnp_partial, C297_fispact_partial, C297_mesh, C298_setup, C298_activation, C299_column, C299_points, C299_array_partial, C299_array_violated, C300_material_partial, C300_void_violated, C301_order, C301_run, C302_alone_partial, C302_replaced_partial, C302_removed_partial, C302_energy_violated, C303_material, C303_surface_partial, C303_union_violated, C304_csv_partial, C304_points, C305_old_file_violated, C306_check_partial, C306_above_violated, C306_below_violated, C307_point_violated, C307_slice_violated, C307_line_violated, C307_energy_partial, C307_time_partial, C308_front_partial, C309_directory_violated, C309_weights_violated, C310_time_violated, C310_peak_violated, C310_energy_violated, C310_bin_partial, C310_slice_partial, C311_fraction_violated, C311_density_violated, C311_density_partial, C311_fraction_partial, C312_energy_violated, C312_mesh_violated, C312_energy_partial, C313_twice_violated, C313_once_partial, C314_surfaces_violated, C314_lookup_partial, C315_cells_violated, C315_words_partial, C316_round, C316_high, C316_ball, C316_cylinder, C317_again, C317_same, C318_inside, C318_together, C319_line_ind, C319_longer_line, C319_longer_ind, C319_shift, C319_zeros, C320_cell_violated, C320_surface_violated, C320_surface_partial

## none (13 theorems)

C28_violated, C67_first_fifty, C171_atoms_violated, C171_weight_partial, C172_count_violated, C172_accepts_partial, C179_any_violated, C179_nothing_partial, C181_violated, C193_summary_violated, C193_text_violated, C286_ptrac_violated, C317_two_words
