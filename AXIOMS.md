# Axioms of each theorem

Generated by `tools/axioms.py` from `#print axioms`; P = propext, C = Classical.choice, Q = Quot.sound. No other axiom occurs.

* C01: `C01_partition` CQP; `C01_nothing_lost` CQP; `C01_unique` CQP; `C01_error` CQP; `C01_nonvacuous` P
* C02: `C02_with_header` QP; `C02_is_spec_file` QP; `C02_missing` CQP; `C02_not_spec` CQP; `C02_recognised` CQP; `C02_nonvacuous` P
* C03: `C03_scans` CQP; `C03_nonvacuous` CQP
* C04: `C04_names` CQP; `C04_never_duplicate` CQP; `C04_dotted_numbers` CQP
* C05: `C05_header` CQP; `C05_last_header` CQP; `C05_repeated_header_ignored` CQP
* C06: `C06_refresh_partial` CQP; `C06_example` CQP; `C06_nonvacuous` CQP; `C06_dates_out_of_order` CQP; `C06_short_scan` CQP; `C06_header_after_last_scan` CQP; `C06_no_scan_yet` CQP
* C07: `C07_decision` CQP; `C07_recorded` CQP; `C07_recorded_open` CQP; `C07_access` CQP; `C07_no_update` CQP; `C07_update` CQP; `C07_missing` P
* C08: `C08_integers` CQP; `C08_numbers` CQP; `C08_error` CQP; `C08_nonvacuous` CQP
* C09: `C09_chronological` CQP; `C09_file_order` QP; `C09_error` CQP; `C09_nonvacuous` CQP
* C10: `C10_min` CQP; `C10_max` CQP; `C10_first` CQP; `C10_last` CQP; `C10_nonvacuous` CQP
* C11: `C11_float_name` CQP; `C11_float_position` CQP; `C11_float_whole` CQP; `C11_float_tenth` CQP; `C11_float_nonvacuous` CQP; `C11_float_example` CQP; `C11_by_name` CQP; `C11_by_position` CQP; `C11_extremes` CQP; `C11_fraction` CQP; `C11_nonvacuous` CQP
* C12: `C12_range` CQP; `C12_mixed` CQP; `C12_no_number` CQP; `C12_no_upper_bound` CQP; `C12_no_lower_bound` CQP; `C12_single_text` CQP; `C12_zero` CQP; `C12_occurrence` CQP; `C12_from_end` CQP; `C12_nonvacuous` CQP; `C12_nonvacuous_texts` CQP
* C13: `C13_relative` CQP; `C13_occurrence` CQP; `C13_from_end` CQP; `C13_no_position` CQP; `C13_everything` CQP; `C13_no_scans` CQP; `C13_index` CQP; `C13_nonvacuous` CQP
* C14: `C14_float` CQP; `C14_number` CQP; `C14_string` CQP; `C14_tuple` CQP; `C14_tuple_error` CQP; `C14_nonvacuous` CQP
* C15: `C15_all` CQP; `C15_listed` CQP; `C15_nonvacuous` CQP
* C16: `C16_kind` CQP; `C16_kind_nonvacuous` CQP; `C16_at_most_one` CQP; `C16_load_order` CQP; `C16_selects` CQP
* C17: `C17_unrecognized` CQP; `C17_nonvacuous` CQP
* C18: `C18_last_wins` CQP; `C18_keys_once` QP; `C18_keys_exact` CQP; `C18_lazy_attributes` QP; `C18_plugins` QP
* C19: `C19_history` CQP; `C19_nonvacuous` CQP; `C19_failure` CQP
* C20: `C20_order` CQP; `C20_O_lines_matter` CQP
* C21: `C21_table` CQP; `C21_rectangular` QP; `C21_no_data` CQP; `C21_nonvacuous` CQP; `C21_determined` CQP; `C21_first_last` CQP
* C22: `C22_labels` CQP; `C22_nonvacuous` CQP; `C22_first_can_change` none; `C22_distinct` QP; `C22_never_raises` CQP
* C23: `C23_comments` CQP; `C23_text` CQP; `C23_nonvacuous` CQP
* C24: `C24_spectra` CQP; `C24_continued` CQP; `C24_nonvacuous` CQP; `C24_indented_line_lost` CQP
* C25: `C25_mca_kept` QP; `C25_combined` QP; `C25_single` P; `C25_groups` CQP; `C25_groups_nonvacuous` P; `C25_mca_between_rows` P
* C26: `C26_positioners` CQP; `C26_nonvacuous` CQP
* C27: `C27_metadata` CQP; `C27_values` CQP; `C27_values_nonvacuous` none
* C28: `C28_T_last` CQP; `C28_M_last` CQP; `C28_line` QP; `C28_nonvacuous` CQP
* C29: `C29_G` CQP; `C29_nonvacuous` CQP
* C30: `C30_aborted` CQP; `C30_comments` CQP; `C30_R` CQP; `C30_U` CQP; `C30_UIM` CQP; `C30_UXML` CQP; `C30_MD` CQP; `C30_nonvacuous` CQP
* C31: `C31_missing_counter` QP; `C31_missing_positioner` QP; `C31_counters` CQP; `C31_positioners` CQP; `C31_nonvacuous` CQP
* C32: `C32_raises_iff_empty` CQP; `C32_empty` P; `C32_valid` CQP; `C32_identity` CQP; `C32_idempotent` CQP; `C32_characters` CQP; `C32_length` CQP; `C32_not_injective` P
* C33: `C33_first_space` QP; `C33_no_space` P; `C33_trimmed` QP; `C33_total` QP
* C34: `C34_inverts_joining` QP; `C34_no_double` QP; `C34_no_tab` QP; `C34_content` QP
* C35: `C35_plain` CQP; `C35_suffix` CQP; `C35_names_injective` CQP; `C35_suffix_ne_plain` P
* C36: `C36_size` QP; `C36_values` QP; `C36_row_major` QP; `C36_offset_injective` QP
* C37: `C37_spec` CQP; `C37_spock` CQP; `C37_other_raises` QP; `C37_only_ValueError` P
* C38: `C38_addAttributes` CQP; `C38_openGroup_existing` CQP; `C38_new_group` CQP; `C38_writeDataset` CQP; `C38_old_link_keeps_old_value` QP; `C38_nonvacuous` QP
* C39: `C39_makeLink_name` CQP; `C39_makeLink_path` CQP; `C39_shared_forever` CQP; `C39_nonvacuous` QP
* C40: `C40_entries` CQP; `C40_nonvacuous` CQP; `C40_example` CQP; `C40_refused` CQP
* C41: `C41_columns` CQP; `C41_signal_axes` CQP; `C41_nothing_else` CQP
* C42: `C42_mesh_partial` CQP; `C42_nonvacuous` CQP; `C42_transposed` CQP; `C42_second_save` CQP
* C43: `C43_calibrated` CQP; `C43_uncalibrated` CQP
* C44: `C44_nonvacuous` CQP; `C44_example` CQP; `C44_results` CQP; `C44_reserved` CQP; `C44_unrecognized` CQP
* C45: `C45_axes` CQP
* C46: `C46_last` CQP; `C46_links_partial` CQP; `C46_nonvacuous` CQP; `C46_example` CQP; `C46_two_links` CQP
* C47: `C47_transparent` CQP; `C47_bounded` CQP; `C47_nonvacuous` CQP
* C48: `C48_roundtrip` CQP; `C48_int` CQP; `C48_nonvacuous` CQP; `C48_literal` CQP; `C48_mismatch` CQP; `C48_never_raises` CQP; `C48_raises` CQP; `C48_never_raises_nonvacuous` CQP
* C49: `C49_false` CQP; `C49_raises` CQP; `C49_partial` CQP; `C49_nonvacuous` CQP
* C50: `C50_updated` CQP; `C50_once` CQP; `C50_torn` P; `C50_missed` CQP; `C50_nonvacuous` P
* C51: `C51_unchanged` CQP; `C51_complete` CQP; `C51_killed` CQP; `C51_stuck` CQP; `C51_lost` CQP; `C51_not_caught_up` CQP; `C51_never_again` CQP; `C51_empty_plot_kept` CQP
* C52: `C52_name` P; `C52_same_plot` CQP; `C52_distinct` CQP; `C52_nonvacuous` P; `C52_collision` none
* C53: `C53_directory` CQP; `C53_no_extension` CQP; `C53_no_directory` QP; `C53_stops` CQP; `C53_shared` CQP
* C54: `C54_auto` CQP; `C54_auto_refused` P; `C54_default` CQP; `C54_kept` CQP; `C54_refused` CQP; `C54_registered` CQP; `C54_singleton` QP; `C54_nonvacuous` P
* C55: `C55_nonvacuous` CQP; `C55_duplicate` CQP; `C55_no_L` CQP; `C55_aborted` CQP; `C55_line_columns` CQP; `C55_line` CQP; `C55_no_data` CQP; `C55_hkl` CQP; `C55_same_length` CQP; `C55_read_before` CQP; `C55_point_numbers` CQP; `C55_nonvacuous_read` CQP
* C56: `C56_mesh` CQP; `C56_stopped` CQP; `C56_nonvacuous` CQP; `C56_stopped_nonvacuous` CQP; `C56_unclean_label` CQP; `C56_second_plot` CQP
* C57: `C57_list` CQP; `C57_refused` CQP; `C57_nonvacuous` QP; `C57_all_refused` QP
* C58: `C58_all` P; `C58_listed` CQP; `C58_nonvacuous` P
* C59: `C59_existing_kept` CQP; `C59_only_outputs` CQP; `C59_converts` CQP; `C59_output_name` QP; `C59_nonvacuous` CQP
* C60: `C60_expanded` CQP; `C60_refused` CQP; `C60_nonvacuous` QP
* C61: `C61_distinct_partial` QP; `C61_collision` none; `C61_not_the_input` QP; `C61_place` QP; `C61_no_extension` none; `C61_nonvacuous` none
* C62: `C62_rows` CQP; `C62_no_data` CQP; `C62_only_outputs` CQP; `C62_missing_reported` QP; `C62_nonvacuous` CQP
* C63: `C63_partial` CQP; `C63_total` P; `C63_stated` P; `C63_first_agreeing` CQP; `C63_false` CQP; `C63_nonvacuous` P; `C63_others` QP; `C63_others_never` CQP; `C63_others_nonvacuous` none
* C64: `C64_Q` CQP; `C64_Q_other` CQP; `C64_UB` CQP; `C64_U` CQP; `C64_lattice_reflections` CQP; `C64_twoc` CQP; `C64_short_twoc` CQP; `C64_twoc_nonvacuous` CQP; `C64_G` CQP; `C64_G_redefined` P; `C64_mode` CQP; `C64_sector` CQP; `C64_short_G1` CQP; `C64_nonvacuous` CQP; `C64_descriptions` CQP; `C64_descriptions_nonvacuous` CQP
* C65: `C65_no_change_overlooked_partial` CQP; `C65_no_change_overlooked_refresh_partial` CQP; `C65_lost_update` CQP
* C66: `C66_astype_float` CQP; `C66_astype_text` CQP; `C66_astype_nonvacuous` CQP; `C66_round_trip` CQP; `C66_missing` P; `C66_read_only` P; `C66_group` CQP; `C66_nonvacuous` QP
* C67: `C67_Q` CQP; `C67_I` CQP; `C67_nonvacuous` CQP
* C68: `C68_calib` CQP; `C68_ctime` CQP; `C68_chann` CQP; `C68_roi` CQP; `C68_nonvacuous` CQP; `C68_roi_nonvacuous` CQP
* C69: `C69_header_date` CQP; `C69_nonvacuous` CQP
* C70: `C70_untouched` CQP; `C70_savable` CQP; `C70_nonvacuous` CQP; `C70_positions_in_header` CQP
* C71: `C71_plots` CQP; `C71_smaller` CQP; `C71_new_scan` CQP; `C71_last` CQP; `C71_nonvacuous` CQP; `C71_stale` CQP; `C71_bytes` CQP
* C72: `C72_page` CQP; `C72_copy` CQP; `C72_nonvacuous` CQP; `C72_dangling` CQP
* C73: `C73_only_own_directory` CQP
* C74: `C74_identity` CQP; `C74_date` CQP; `C74_comments` CQP; `C74_hkl` CQP
* C75: `C75_twice` CQP; `C75_counters` CQP; `C75_positioners` CQP; `C75_metadata` CQP
* C76: `C76_preset` CQP
* C77: `C77_heading` CQP; `C77_nonvacuous` CQP
* C78: `C78_elements` CQP
* C79: `C79_positioners` CQP; `C79_nonvacuous` CQP; `C79_example` CQP
* C80: `C80_values` CQP; `C80_example` CQP
* C81: `C81_mca` CQP; `C81_no_regions` CQP; `C81_example` CQP
* C82: `C82_attributes` CQP; `C82_user` CQP; `C82_no_user` CQP; `C82_nothing_else` CQP; `C82_nonvacuous` CQP; `C82_example` CQP
* C83: `C83_placeholder` CQP; `C83_nonvacuous` CQP
* C84: `C84_parameters` CQP; `C84_nonvacuous` CQP; `C84_example` CQP
* C85: `C85_arrays` CQP; `C85_nonvacuous` CQP; `C85_example` CQP
* C86: `C86_diffractometer` CQP; `C86_nonvacuous` CQP; `C86_example` CQP
* C87: `C87_temperature` CQP; `C87_example` CQP; `C87_without_geometry` CQP
* C88: `C88_nothing_else` CQP; `C88_example` CQP
* C89: `C89_save_does_not_raise` CQP; `C89_nonvacuous` CQP; `C89_needed` CQP
* C90: `C90_data` CQP; `C90_nonvacuous` CQP; `C90_text` CQP; `C90_example` CQP
* C91: `C91_comments` CQP; `C91_results` CQP; `C91_reserved` CQP; `C91_unrecognized` CQP; `C91_hkl` CQP; `C91_monitor` CQP; `C91_time` CQP; `C91_positions` CQP; `C91_example` CQP
* C92: `C92_interprets` CQP; `C92_nonvacuous` CQP; `C92_needed` CQP
* C93: `C93_opens` CQP; `C93_nonvacuous` CQP; `C93_needed` CQP
* C94: `C94_nonvacuous` CQP; `C94_reads` CQP
* C95: `C95_converts` CQP; `C95_nonvacuous` CQP; `C95_needed` CQP; `C95_mesh_nonvacuous` CQP; `C95_mesh_needed` CQP
* C96: `C96_identity` CQP; `C96_date` CQP; `C96_values` CQP; `C96_mca` CQP; `C96_geometry` CQP; `C96_metadata` CQP; `C96_nonvacuous` CQP; `C96_text` CQP; `C96_form` CQP; `C96_example` CQP; `C96_setpoints` CQP; `C96_temperature` CQP
* C97: `C97_headers` CQP; `C97_results` CQP; `C97_reserved` CQP; `C97_unrecognized` CQP; `C97_counters` CQP; `C97_positioners` CQP; `C97_positions` CQP; `C97_values` CQP; `C97_file` CQP; `C97_nonvacuous` CQP; `C97_example` CQP
* C98: `C98_diffractometer` CQP; `C98_none` CQP; `C98_nonvacuous` CQP; `C98_numbers` CQP; `C98_stated` CQP; `C98_example` CQP; `C98_unique` CQP
* C99: `C99_headers` CQP; `C99_parameters` CQP; `C99_metadata` CQP; `C99_document` CQP; `C99_temperature` CQP; `C99_mca` CQP; `C99_nonvacuous` CQP; `C99_text` CQP; `C99_example` CQP
* C100: `C100_known` CQP; `C100_str` CQP; `C100_brief` CQP; `C100_all` CQP; `C100_no_numbers` CQP; `C100_no_matrix` CQP; `C100_aligned_unique` CQP; `C100_motors` none; `C100_nonvacuous` CQP; `C100_example` CQP; `C100_counterexample` CQP
* C101: `C101_tells` CQP; `C101_source` CQP; `C101_same` CQP; `C101_run` CQP; `C101_nonvacuous` P; `C101_run_nonvacuous` CQP; `C101_quote` QP
* C102: `C102_files` QP; `C102_spec_files` QP; `C102_refuses` CQP; `C102_stops` CQP; `C102_only_own` CQP; `C102_again` CQP; `C102_command_again` CQP; `C102_nonvacuous` CQP; `C102_again_nonvacuous` CQP
* C103: `C103_packaged` CQP; `C103_dispatch` CQP; `C103_keeps` CQP; `C103_literal` CQP; `C103_added` CQP; `C103_none` CQP; `C103_refuses` P; `C103_installs` CQP; `C103_stops` CQP; `C103_nonvacuous` CQP; `C103_half` P
* C104: `C104_boundaries` CQP; `C104_centre` CQP; `C104_inside` CQP; `C104_outside` CQP; `C104_positive` CQP; `C104_invalid` QP; `C104_floor` CQP; `C104_zero` CQP; `C104_nan` QP; `C104_log` CQP; `C104_log_order` CQP; `C104_log_flat` CQP; `C104_drawn` CQP; `C104_one` CQP; `C104_line` CQP; `C104_line_log` CQP; `C104_mesh` CQP; `C104_scan` CQP; `C104_nonvacuous` CQP; `C104_first_row` CQP
* C105: `C105_fails` CQP; `C105_written` CQP; `C105_older` CQP; `C105_again` CQP; `C105_refused` CQP; `C105_plots` CQP; `C105_mesh` CQP; `C105_nonvacuous` CQP
* C106: `C106_left` CQP; `C106_complete` CQP; `C106_twice` CQP; `C106_missing` CQP; `C106_nonvacuous` CQP
* C107: `C107_alone` CQP; `C107_order` CQP; `C107_fails` CQP; `C107_iff` CQP; `C107_nonvacuous` CQP; `C107_labels_matter` CQP; `C107_O_lines_matter` CQP
* C108: `C108_dated` CQP; `C108_scans` CQP; `C108_entry` CQP; `C108_converted` CQP; `C108_append` CQP; `C108_nonvacuous` CQP; `C108_P_lines_matter` CQP
* C109: `C109_line` CQP; `C109_hkl` CQP; `C109_extract` CQP; `C109_nonvacuous` CQP; `C109_hkl_differs` CQP; `C109_hkl_nonvacuous` CQP
* C110: `C110_save` CQP; `C110_read` CQP; `C110_nonvacuous` CQP; `C110_unreadable_matters` CQP; `C110_mesh_matters` CQP
* C111: `C111_scans` CQP; `C111_getScan` CQP; `C111_entry` CQP; `C111_nonvacuous` CQP; `C111_last_scan` CQP
* C112: `C112_same` P; `C112_new` QP; `C112_answers` QP; `C112_match` CQP; `C112_direct` P; `C112_second` P; `C112_failed` P; `C112_failed_match` P; `C112_reset` QP; `C112_nonvacuous` P
* C113: `C113_new` CQP; `C113_line` CQP; `C113_hkl` CQP; `C113_titles_stay` CQP; `C113_nonvacuous` CQP; `C113_mesh_again` CQP; `C113_hkl_again` CQP; `C113_mesh` CQP; `C113_mesh_stale` CQP; `C113_mesh_titles` CQP; `C113_mesh_apart` CQP; `C113_mesh_nonvacuous` CQP
* C114: `C114_save` CQP; `C114_read` CQP; `C114_plot` CQP; `C114_changes` CQP; `C114_nonvacuous` CQP; `C114_mesh_matters` CQP; `C114_hkl_matters` CQP
* C115: `C115_file` CQP; `C115_every_text` CQP; `C115_short` CQP; `C115_shared` CQP; `C115_exactly` CQP; `C115_nonvacuous` CQP
