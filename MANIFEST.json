{
 "claims": [
  {
   "property": "C01",
   "status": "proved",
   "theorems": [
    "S2N.Props.C01_partition",
    "S2N.Props.C01_nothing_lost",
    "S2N.Props.C01_unique",
    "S2N.Props.C01_error",
    "S2N.Props.C01_nonvacuous"
   ],
   "note": ""
  },
  {
   "property": "C02",
   "status": "proved",
   "theorems": [
    "S2N.Props.C02_with_header",
    "S2N.Props.C02_is_spec_file",
    "S2N.Props.C02_missing",
    "S2N.Props.C02_not_spec",
    "S2N.Props.C02_recognised",
    "S2N.Props.C02_nonvacuous"
   ],
   "note": ""
  },
  {
   "property": "C03",
   "status": "proved",
   "theorems": [
    "S2N.Props.C03_scans",
    "S2N.Props.C03_nonvacuous"
   ],
   "note": ""
  },
  {
   "property": "C04",
   "status": "proved",
   "theorems": [
    "S2N.Props.C04_names",
    "S2N.Props.C04_never_duplicate",
    "S2N.Props.C04_dotted_numbers"
   ],
   "note": ""
  },
  {
   "property": "C05",
   "status": "proved",
   "theorems": [
    "S2N.Props.C05_header",
    "S2N.Props.C05_last_header",
    "S2N.Props.C05_repeated_header_ignored"
   ],
   "note": ""
  },
  {
   "property": "C06",
   "status": "partial",
   "theorems": [
    "S2N.Props.C06_refresh_partial",
    "S2N.Props.C06_example",
    "S2N.Props.C06_nonvacuous",
    "S2N.Props.C06_dates_out_of_order",
    "S2N.Props.C06_short_scan",
    "S2N.Props.C06_header_after_last_scan",
    "S2N.Props.C06_no_scan_yet"
   ],
   "note": "Proved for every history of accesses and refreshes in which the file grows `Safe`ly. For other growth the claim is false of the code: C06_dates_out_of_order, C06_short_scan, C06_header_after_last_scan, C06_no_scan_yet are concrete runs."
  },
  {
   "property": "C07",
   "status": "proved",
   "theorems": [
    "S2N.Props.C07_decision",
    "S2N.Props.C07_recorded",
    "S2N.Props.C07_recorded_open",
    "S2N.Props.C07_access",
    "S2N.Props.C07_no_update",
    "S2N.Props.C07_update",
    "S2N.Props.C07_missing"
   ],
   "note": "update_available, the recorded stat and the result of refresh, for every file state; missing file raises OSError."
  },
  {
   "property": "C08",
   "status": "proved",
   "theorems": [
    "S2N.Props.C08_integers",
    "S2N.Props.C08_numbers",
    "S2N.Props.C08_error",
    "S2N.Props.C08_nonvacuous"
   ],
   "note": "Stable sort by int value when all names are ints, by float value otherwise (NaN names excluded); ValueError exactly when a name is no number."
  },
  {
   "property": "C09",
   "status": "proved",
   "theorems": [
    "S2N.Props.C09_chronological",
    "S2N.Props.C09_file_order",
    "S2N.Props.C09_error",
    "S2N.Props.C09_nonvacuous"
   ],
   "note": "For file objects whose scans are stored under their own names (proved for every opened file, open_wellNamed)."
  },
  {
   "property": "C10",
   "status": "proved",
   "theorems": [
    "S2N.Props.C10_min",
    "S2N.Props.C10_max",
    "S2N.Props.C10_first",
    "S2N.Props.C10_last",
    "S2N.Props.C10_nonvacuous"
   ],
   "note": "Including which one of equals is returned for first/last."
  },
  {
   "property": "C11",
   "status": "proved",
   "theorems": [
    "S2N.Props.C11_float_name",
    "S2N.Props.C11_float_position",
    "S2N.Props.C11_float_whole",
    "S2N.Props.C11_float_tenth",
    "S2N.Props.C11_float_nonvacuous",
    "S2N.Props.C11_float_example",
    "S2N.Props.C11_by_name",
    "S2N.Props.C11_by_position",
    "S2N.Props.C11_extremes",
    "S2N.Props.C11_fraction",
    "S2N.Props.C11_nonvacuous"
   ],
   "note": "By name (>= 1), by position (< 1), None / IndexError / ValueError cases."
  },
  {
   "property": "C12",
   "status": "proved",
   "theorems": [
    "S2N.Props.C12_range",
    "S2N.Props.C12_mixed",
    "S2N.Props.C12_no_number",
    "S2N.Props.C12_no_upper_bound",
    "S2N.Props.C12_no_lower_bound",
    "S2N.Props.C12_single_text",
    "S2N.Props.C12_zero",
    "S2N.Props.C12_occurrence",
    "S2N.Props.C12_from_end",
    "S2N.Props.C12_nonvacuous",
    "S2N.Props.C12_nonvacuous_texts"
   ],
   "note": "Ranges, steps >= 0, steps < 0, mixed signs; C12_no_upper_bound shows that sdf[a:] leaves out the chronologically last scan (code behaviour)."
  },
  {
   "property": "C13",
   "status": "proved",
   "theorems": [
    "S2N.Props.C13_relative",
    "S2N.Props.C13_occurrence",
    "S2N.Props.C13_from_end",
    "S2N.Props.C13_no_position",
    "S2N.Props.C13_everything",
    "S2N.Props.C13_no_scans",
    "S2N.Props.C13_index",
    "S2N.Props.C13_nonvacuous"
   ],
   "note": "Relative slices and negative single indices; IndexError on files without scans."
  },
  {
   "property": "C14",
   "status": "proved",
   "theorems": [
    "S2N.Props.C14_float",
    "S2N.Props.C14_number",
    "S2N.Props.C14_string",
    "S2N.Props.C14_tuple",
    "S2N.Props.C14_tuple_error",
    "S2N.Props.C14_nonvacuous"
   ],
   "note": "Concatenation, and the first failing item decides the exception."
  },
  {
   "property": "C15",
   "status": "proved",
   "theorems": [
    "S2N.Props.C15_all",
    "S2N.Props.C15_listed",
    "S2N.Props.C15_nonvacuous"
   ],
   "note": "All scans, or the listed ones; names must be numbers >= 1."
  },
  {
   "property": "C16",
   "status": "proved",
   "theorems": [
    "S2N.Props.C16_kind",
    "S2N.Props.C16_kind_nonvacuous",
    "S2N.Props.C16_at_most_one",
    "S2N.Props.C16_load_order",
    "S2N.Props.C16_selects"
   ],
   "note": ""
  },
  {
   "property": "C17",
   "status": "proved",
   "theorems": [
    "S2N.Props.C17_unrecognized",
    "S2N.Props.C17_nonvacuous"
   ],
   "note": ""
  },
  {
   "property": "C18",
   "status": "proved",
   "theorems": [
    "S2N.Props.C18_last_wins",
    "S2N.Props.C18_keys_once",
    "S2N.Props.C18_keys_exact",
    "S2N.Props.C18_lazy_attributes",
    "S2N.Props.C18_plugins"
   ],
   "note": ""
  },
  {
   "property": "C19",
   "status": "proved",
   "theorems": [
    "S2N.Props.C19_history",
    "S2N.Props.C19_nonvacuous",
    "S2N.Props.C19_failure"
   ],
   "note": ""
  },
  {
   "property": "C20",
   "status": "proved",
   "theorems": [
    "S2N.Props.C20_order",
    "S2N.Props.C20_O_lines_matter"
   ],
   "note": ""
  },
  {
   "property": "C21",
   "status": "proved",
   "theorems": [
    "S2N.Props.C21_table",
    "S2N.Props.C21_rectangular",
    "S2N.Props.C21_no_data",
    "S2N.Props.C21_nonvacuous",
    "S2N.Props.C21_determined",
    "S2N.Props.C21_first_last"
   ],
   "note": ""
  },
  {
   "property": "C22",
   "status": "proved",
   "theorems": [
    "S2N.Props.C22_labels",
    "S2N.Props.C22_nonvacuous",
    "S2N.Props.C22_first_can_change",
    "S2N.Props.C22_distinct",
    "S2N.Props.C22_never_raises"
   ],
   "note": ""
  },
  {
   "property": "C23",
   "status": "proved",
   "theorems": [
    "S2N.Props.C23_comments",
    "S2N.Props.C23_text",
    "S2N.Props.C23_nonvacuous"
   ],
   "note": ""
  },
  {
   "property": "C24",
   "status": "proved",
   "theorems": [
    "S2N.Props.C24_spectra",
    "S2N.Props.C24_continued",
    "S2N.Props.C24_nonvacuous",
    "S2N.Props.C24_indented_line_lost"
   ],
   "note": ""
  },
  {
   "property": "C25",
   "status": "proved",
   "theorems": [
    "S2N.Props.C25_mca_kept",
    "S2N.Props.C25_combined",
    "S2N.Props.C25_single",
    "S2N.Props.C25_groups",
    "S2N.Props.C25_groups_nonvacuous",
    "S2N.Props.C25_mca_between_rows"
   ],
   "note": ""
  },
  {
   "property": "C26",
   "status": "proved",
   "theorems": [
    "S2N.Props.C26_positioners",
    "S2N.Props.C26_nonvacuous"
   ],
   "note": ""
  },
  {
   "property": "C27",
   "status": "proved",
   "theorems": [
    "S2N.Props.C27_metadata",
    "S2N.Props.C27_values",
    "S2N.Props.C27_values_nonvacuous"
   ],
   "note": ""
  },
  {
   "property": "C28",
   "status": "proved",
   "theorems": [
    "S2N.Props.C28_T_last",
    "S2N.Props.C28_M_last",
    "S2N.Props.C28_line",
    "S2N.Props.C28_nonvacuous"
   ],
   "note": ""
  },
  {
   "property": "C29",
   "status": "proved",
   "theorems": [
    "S2N.Props.C29_G",
    "S2N.Props.C29_nonvacuous"
   ],
   "note": ""
  },
  {
   "property": "C30",
   "status": "proved",
   "theorems": [
    "S2N.Props.C30_aborted",
    "S2N.Props.C30_comments",
    "S2N.Props.C30_R",
    "S2N.Props.C30_U",
    "S2N.Props.C30_UIM",
    "S2N.Props.C30_UXML",
    "S2N.Props.C30_MD",
    "S2N.Props.C30_nonvacuous"
   ],
   "note": ""
  },
  {
   "property": "C31",
   "status": "proved",
   "theorems": [
    "S2N.Props.C31_missing_counter",
    "S2N.Props.C31_missing_positioner",
    "S2N.Props.C31_counters",
    "S2N.Props.C31_positioners",
    "S2N.Props.C31_nonvacuous"
   ],
   "note": ""
  },
  {
   "property": "C32",
   "status": "proved",
   "theorems": [
    "S2N.Props.C32_raises_iff_empty",
    "S2N.Props.C32_empty",
    "S2N.Props.C32_valid",
    "S2N.Props.C32_identity",
    "S2N.Props.C32_idempotent",
    "S2N.Props.C32_characters",
    "S2N.Props.C32_length",
    "S2N.Props.C32_not_injective"
   ],
   "note": ""
  },
  {
   "property": "C33",
   "status": "proved",
   "theorems": [
    "S2N.Props.C33_first_space",
    "S2N.Props.C33_no_space",
    "S2N.Props.C33_trimmed",
    "S2N.Props.C33_total"
   ],
   "note": ""
  },
  {
   "property": "C34",
   "status": "proved",
   "theorems": [
    "S2N.Props.C34_inverts_joining",
    "S2N.Props.C34_no_double",
    "S2N.Props.C34_no_tab",
    "S2N.Props.C34_content"
   ],
   "note": ""
  },
  {
   "property": "C35",
   "status": "proved",
   "theorems": [
    "S2N.Props.C35_plain",
    "S2N.Props.C35_suffix",
    "S2N.Props.C35_names_injective",
    "S2N.Props.C35_suffix_ne_plain"
   ],
   "note": ""
  },
  {
   "property": "C36",
   "status": "proved",
   "theorems": [
    "S2N.Props.C36_size",
    "S2N.Props.C36_values",
    "S2N.Props.C36_row_major",
    "S2N.Props.C36_offset_injective"
   ],
   "note": ""
  },
  {
   "property": "C37",
   "status": "proved",
   "theorems": [
    "S2N.Props.C37_spec",
    "S2N.Props.C37_spock",
    "S2N.Props.C37_other_raises",
    "S2N.Props.C37_only_ValueError"
   ],
   "note": ""
  },
  {
   "property": "C38",
   "status": "proved",
   "theorems": [
    "S2N.Props.C38_addAttributes",
    "S2N.Props.C38_openGroup_existing",
    "S2N.Props.C38_new_group",
    "S2N.Props.C38_writeDataset",
    "S2N.Props.C38_old_link_keeps_old_value",
    "S2N.Props.C38_nonvacuous"
   ],
   "note": "Model/H5.lean + Model eznx functions; names of one path component. Link of an overwritten dataset keeps the old value (C38_old_link_keeps_old_value)."
  },
  {
   "property": "C39",
   "status": "proved",
   "theorems": [
    "S2N.Props.C39_makeLink_name",
    "S2N.Props.C39_makeLink_path",
    "S2N.Props.C39_shared_forever",
    "S2N.Props.C39_nonvacuous"
   ],
   "note": "relative names and group-path targets, as the writers use them; path components ASCII."
  },
  {
   "property": "C40",
   "status": "proved",
   "theorems": [
    "S2N.Props.C40_entries",
    "S2N.Props.C40_nonvacuous",
    "S2N.Props.C40_example",
    "S2N.Props.C40_refused"
   ],
   "note": ""
  },
  {
   "property": "C41",
   "status": "proved",
   "theorems": [
    "S2N.Props.C41_columns",
    "S2N.Props.C41_signal_axes",
    "S2N.Props.C41_nothing_else"
   ],
   "note": ""
  },
  {
   "property": "C42",
   "status": "partial",
   "theorems": [
    "S2N.Props.C42_mesh_partial",
    "S2N.Props.C42_nonvacuous",
    "S2N.Props.C42_transposed",
    "S2N.Props.C42_second_save"
   ],
   "note": "The statement is false of the code: C42_transposed is a file in which element (i,j) is not the observation at i,j (the shape is (n1,n2) while the first axis varies fastest). Proved instead, for every saved mesh: axes, shape, order of values, padding, signal and axes attributes. C42_second_save: a mesh cannot be saved twice from one file object."
  },
  {
   "property": "C43",
   "status": "proved",
   "theorems": [
    "S2N.Props.C43_calibrated",
    "S2N.Props.C43_uncalibrated"
   ],
   "note": ""
  },
  {
   "property": "C44",
   "status": "proved",
   "theorems": [
    "S2N.Props.C44_nonvacuous",
    "S2N.Props.C44_example",
    "S2N.Props.C44_results",
    "S2N.Props.C44_reserved",
    "S2N.Props.C44_unrecognized"
   ],
   "note": "for every successful save of a Savable file (no mnemonic is an absolute path; scan names as the file gives them), all scans, all writers and registration orders"
  },
  {
   "property": "C45",
   "status": "proved",
   "theorems": [
    "S2N.Props.C45_axes"
   ],
   "note": ""
  },
  {
   "property": "C46",
   "status": "partial",
   "theorems": [
    "S2N.Props.C46_last",
    "S2N.Props.C46_links_partial",
    "S2N.Props.C46_nonvacuous",
    "S2N.Props.C46_example",
    "S2N.Props.C46_two_links"
   ],
   "note": "The statement is false of the code: C46_two_links is a valid document with two links to one id, of which only one is made. C46_links_partial proves it for hard links whose target_id no other hard link has and ids that no other element has; C46_last is what holds for all documents."
  },
  {
   "property": "C47",
   "status": "proved",
   "theorems": [
    "S2N.Props.C47_transparent",
    "S2N.Props.C47_bounded",
    "S2N.Props.C47_nonvacuous"
   ],
   "note": ""
  },
  {
   "property": "C48",
   "status": "proved",
   "theorems": [
    "S2N.Props.C48_roundtrip",
    "S2N.Props.C48_int",
    "S2N.Props.C48_nonvacuous",
    "S2N.Props.C48_literal",
    "S2N.Props.C48_mismatch",
    "S2N.Props.C48_never_raises",
    "S2N.Props.C48_raises",
    "S2N.Props.C48_never_raises_nonvacuous"
   ],
   "note": ""
  },
  {
   "property": "C49",
   "status": "partial",
   "theorems": [
    "S2N.Props.C49_false",
    "S2N.Props.C49_raises",
    "S2N.Props.C49_partial",
    "S2N.Props.C49_nonvacuous"
   ],
   "note": "The code converts %o with int(x, 7): the full statement is refuted by C49_false/C49_raises; C49_partial says exactly when the result is right."
  },
  {
   "property": "C50",
   "status": "proved",
   "theorems": [
    "S2N.Props.C50_updated",
    "S2N.Props.C50_once",
    "S2N.Props.C50_torn",
    "S2N.Props.C50_missed",
    "S2N.Props.C50_nonvacuous"
   ],
   "note": "exact condition (both time and size differ), cache afterwards, once, torn cache; C50_missed proves that the documented meaning is not met"
  },
  {
   "property": "C51",
   "status": "proved",
   "theorems": [
    "S2N.Props.C51_unchanged",
    "S2N.Props.C51_complete",
    "S2N.Props.C51_killed",
    "S2N.Props.C51_stuck",
    "S2N.Props.C51_lost",
    "S2N.Props.C51_not_caught_up",
    "S2N.Props.C51_never_again",
    "S2N.Props.C51_empty_plot_kept"
   ],
   "note": "classification of every crash point, and what the later runs do in each; the hoped-for recovery is refuted by C51_lost, C51_stuck and the concrete C51_not_caught_up"
  },
  {
   "property": "C52",
   "status": "proved",
   "theorems": [
    "S2N.Props.C52_name",
    "S2N.Props.C52_same_plot",
    "S2N.Props.C52_distinct",
    "S2N.Props.C52_nonvacuous",
    "S2N.Props.C52_collision"
   ],
   "note": "distinct for plain names, and the exact condition for sharing a plot file; C52_collision shows 01 and 1"
  },
  {
   "property": "C53",
   "status": "proved",
   "theorems": [
    "S2N.Props.C53_directory",
    "S2N.Props.C53_no_extension",
    "S2N.Props.C53_no_directory",
    "S2N.Props.C53_stops",
    "S2N.Props.C53_shared"
   ],
   "note": "directory for every date and name; files without the three header lines stop the run; C53_shared shows two files mixed in one directory"
  },
  {
   "property": "C54",
   "status": "proved",
   "theorems": [
    "S2N.Props.C54_auto",
    "S2N.Props.C54_auto_refused",
    "S2N.Props.C54_default",
    "S2N.Props.C54_kept",
    "S2N.Props.C54_refused",
    "S2N.Props.C54_registered",
    "S2N.Props.C54_singleton",
    "S2N.Props.C54_nonvacuous"
   ],
   "note": "all histories of the selector; the rule for unregistered macros is Spec/Plot.lean"
  },
  {
   "property": "C55",
   "status": "proved",
   "theorems": [
    "S2N.Props.C55_nonvacuous",
    "S2N.Props.C55_duplicate",
    "S2N.Props.C55_no_L",
    "S2N.Props.C55_aborted",
    "S2N.Props.C55_line_columns",
    "S2N.Props.C55_line",
    "S2N.Props.C55_no_data",
    "S2N.Props.C55_hkl",
    "S2N.Props.C55_same_length",
    "S2N.Props.C55_read_before",
    "S2N.Props.C55_point_numbers",
    "S2N.Props.C55_nonvacuous_read"
   ],
   "note": "hkl plots: values of H, K, L are not NaN; C55_duplicate, C55_no_L, C55_aborted show the odd cases"
  },
  {
   "property": "C56",
   "status": "proved",
   "theorems": [
    "S2N.Props.C56_mesh",
    "S2N.Props.C56_stopped",
    "S2N.Props.C56_nonvacuous",
    "S2N.Props.C56_stopped_nonvacuous",
    "S2N.Props.C56_unclean_label",
    "S2N.Props.C56_second_plot"
   ],
   "note": "C56_unclean_label and C56_second_plot show the two defects"
  },
  {
   "property": "C57",
   "status": "proved",
   "theorems": [
    "S2N.Props.C57_list",
    "S2N.Props.C57_refused",
    "S2N.Props.C57_nonvacuous",
    "S2N.Props.C57_all_refused"
   ],
   "note": "C57_all_refused: the documented -s all is refused"
  },
  {
   "property": "C58",
   "status": "proved",
   "theorems": [
    "S2N.Props.C58_all",
    "S2N.Props.C58_listed",
    "S2N.Props.C58_nonvacuous"
   ],
   "note": "scan names with a fraction can never be listed"
  },
  {
   "property": "C59",
   "status": "proved",
   "theorems": [
    "S2N.Props.C59_existing_kept",
    "S2N.Props.C59_only_outputs",
    "S2N.Props.C59_converts",
    "S2N.Props.C59_output_name",
    "S2N.Props.C59_nonvacuous"
   ],
   "note": "C59_existing_kept, C59_only_outputs, C59_converts, C59_output_name; argparse is not modelled, aliasing of file names is"
  },
  {
   "property": "C60",
   "status": "proved",
   "theorems": [
    "S2N.Props.C60_expanded",
    "S2N.Props.C60_refused",
    "S2N.Props.C60_nonvacuous"
   ],
   "note": ""
  },
  {
   "property": "C61",
   "status": "partial",
   "theorems": [
    "S2N.Props.C61_distinct_partial",
    "S2N.Props.C61_collision",
    "S2N.Props.C61_not_the_input",
    "S2N.Props.C61_place",
    "S2N.Props.C61_no_extension",
    "S2N.Props.C61_nonvacuous"
   ],
   "note": "refuted by C61_collision (1_2 and 1.2); C61_partial proves distinctness for names without underscores"
  },
  {
   "property": "C62",
   "status": "proved",
   "theorems": [
    "S2N.Props.C62_rows",
    "S2N.Props.C62_no_data",
    "S2N.Props.C62_only_outputs",
    "S2N.Props.C62_missing_reported",
    "S2N.Props.C62_nonvacuous"
   ],
   "note": "for each scan of a run whose output is not written again by a later one; str(float) is an arbitrary function"
  },
  {
   "property": "C63",
   "status": "partial",
   "theorems": [
    "S2N.Props.C63_partial",
    "S2N.Props.C63_total",
    "S2N.Props.C63_stated",
    "S2N.Props.C63_first_agreeing",
    "S2N.Props.C63_false",
    "S2N.Props.C63_nonvacuous",
    "S2N.Props.C63_others",
    "S2N.Props.C63_others_never",
    "S2N.Props.C63_others_nonvacuous"
   ],
   "note": "Refuted in full by C63_false (header comment 'fourc.kappa  User = me' gives an unknown name); C63_partial proves it for all scans whose header does not state a dotted name; C63_total, C63_stated, C63_first_agreeing hold for every scan; C63_others_never: variants that need other motors are never found."
  },
  {
   "property": "C64",
   "status": "proved",
   "theorems": [
    "S2N.Props.C64_Q",
    "S2N.Props.C64_Q_other",
    "S2N.Props.C64_UB",
    "S2N.Props.C64_U",
    "S2N.Props.C64_lattice_reflections",
    "S2N.Props.C64_twoc",
    "S2N.Props.C64_short_twoc",
    "S2N.Props.C64_twoc_nonvacuous",
    "S2N.Props.C64_G",
    "S2N.Props.C64_G_redefined",
    "S2N.Props.C64_mode",
    "S2N.Props.C64_sector",
    "S2N.Props.C64_short_G1",
    "S2N.Props.C64_nonvacuous",
    "S2N.Props.C64_descriptions",
    "S2N.Props.C64_descriptions_nonvacuous"
   ],
   "note": "C64_G excludes the keys that #G1 redefines (C64_G_redefined lists them: surf, twoc_old). C64_short_G1: rows of 2..31 numbers cannot be parsed."
  },
  {
   "property": "C65",
   "status": "partial",
   "theorems": [
    "S2N.Props.C65_no_change_overlooked_partial",
    "S2N.Props.C65_no_change_overlooked_refresh_partial",
    "S2N.Props.C65_lost_update"
   ],
   "note": "Proved when the file does not change while it is read; C65_lost_update shows the race in read() (text read before mtime/size are taken)."
  },
  {
   "property": "C66",
   "status": "proved",
   "theorems": [
    "S2N.Props.C66_astype_float",
    "S2N.Props.C66_astype_text",
    "S2N.Props.C66_astype_nonvacuous",
    "S2N.Props.C66_round_trip",
    "S2N.Props.C66_missing",
    "S2N.Props.C66_read_only",
    "S2N.Props.C66_group",
    "S2N.Props.C66_nonvacuous"
   ],
   "note": "astype argument not modelled."
  },
  {
   "property": "C67",
   "status": "proved",
   "theorems": [
    "S2N.Props.C67_Q",
    "S2N.Props.C67_I",
    "S2N.Props.C67_nonvacuous"
   ],
   "note": "#Q and #I lines: last one with content wins"
  },
  {
   "property": "C68",
   "status": "proved",
   "theorems": [
    "S2N.Props.C68_calib",
    "S2N.Props.C68_ctime",
    "S2N.Props.C68_chann",
    "S2N.Props.C68_roi",
    "S2N.Props.C68_nonvacuous",
    "S2N.Props.C68_roi_nonvacuous"
   ],
   "note": "Per line kind, for every successful interpretation of a fresh scan; #@ROI lines that are a name and two integers separated by blanks."
  },
  {
   "property": "C69",
   "status": "proved",
   "theorems": [
    "S2N.Props.C69_header_date",
    "S2N.Props.C69_nonvacuous"
   ],
   "note": "#D lines that are a date (more than one word); numbers (epoch form) excluded."
  },
  {
   "property": "C70",
   "status": "proved",
   "theorems": [
    "S2N.Props.C70_untouched",
    "S2N.Props.C70_savable",
    "S2N.Props.C70_nonvacuous",
    "S2N.Props.C70_positions_in_header"
   ],
   "note": "C70_positions_in_header: a #P line in a header interprets the latest scan"
  },
  {
   "property": "C71",
   "status": "proved",
   "theorems": [
    "S2N.Props.C71_plots",
    "S2N.Props.C71_smaller",
    "S2N.Props.C71_new_scan",
    "S2N.Props.C71_last",
    "S2N.Props.C71_nonvacuous",
    "S2N.Props.C71_stale",
    "S2N.Props.C71_bytes"
   ],
   "note": "exact rule for the plot file of every scan, with its three cases; C71_stale and C71_bytes show plots that keep old points"
  },
  {
   "property": "C72",
   "status": "proved",
   "theorems": [
    "S2N.Props.C72_page",
    "S2N.Props.C72_copy",
    "S2N.Props.C72_nonvacuous",
    "S2N.Props.C72_dangling"
   ],
   "note": "content and order of the page and the list of problems; when it is not rewritten; C72_dangling shows a page that lists a removed plot"
  },
  {
   "property": "C73",
   "status": "proved",
   "theorems": [
    "S2N.Props.C73_only_own_directory"
   ],
   "note": "for every moment of the run, also if the cache cannot be read"
  },
  {
   "property": "C74",
   "status": "proved",
   "theorems": [
    "S2N.Props.C74_identity",
    "S2N.Props.C74_date",
    "S2N.Props.C74_comments",
    "S2N.Props.C74_hkl"
   ],
   "note": "scan_number: for numbers written n and n.m with m > 0"
  },
  {
   "property": "C75",
   "status": "proved",
   "theorems": [
    "S2N.Props.C75_twice",
    "S2N.Props.C75_counters",
    "S2N.Props.C75_positioners",
    "S2N.Props.C75_metadata"
   ],
   "note": "names in the cross references must be non-empty, not '.' and without '/'; C75_twice is a file whose header and scan both have counters"
  },
  {
   "property": "C76",
   "status": "proved",
   "theorems": [
    "S2N.Props.C76_preset"
   ],
   "note": "M and T are compared as texts; the numbers are what float() gives for them. The link is stated as equal content, not as the same object"
  },
  {
   "property": "C77",
   "status": "proved",
   "theorems": [
    "S2N.Props.C77_heading",
    "S2N.Props.C77_nonvacuous"
   ],
   "note": "header as read from the file for the first scan of the run; sorted by code points"
  },
  {
   "property": "C78",
   "status": "proved",
   "theorems": [
    "S2N.Props.C78_elements"
   ],
   "note": "for documents whose names are simple ASCII names (the schema's NCName also allows other letters)"
  },
  {
   "property": "C79",
   "status": "proved",
   "theorems": [
    "S2N.Props.C79_positioners",
    "S2N.Props.C79_nonvacuous",
    "S2N.Props.C79_example"
   ],
   "note": ""
  },
  {
   "property": "C80",
   "status": "proved",
   "theorems": [
    "S2N.Props.C80_values",
    "S2N.Props.C80_example"
   ],
   "note": "values whose label has a cleaned form that another label shares are left out of the claim (the last one is kept)"
  },
  {
   "property": "C81",
   "status": "proved",
   "theorems": [
    "S2N.Props.C81_mca",
    "S2N.Props.C81_no_regions",
    "S2N.Props.C81_example"
   ],
   "note": ""
  },
  {
   "property": "C82",
   "status": "proved",
   "theorems": [
    "S2N.Props.C82_attributes",
    "S2N.Props.C82_user",
    "S2N.Props.C82_no_user",
    "S2N.Props.C82_nothing_else",
    "S2N.Props.C82_nonvacuous",
    "S2N.Props.C82_example"
   ],
   "note": "a first comment without 'User = ' that ends with '=' gives an empty SPEC_user (C82_example): left out of C82_no_user"
  },
  {
   "property": "C83",
   "status": "proved",
   "theorems": [
    "S2N.Props.C83_placeholder",
    "S2N.Props.C83_nonvacuous"
   ],
   "note": ""
  },
  {
   "property": "C84",
   "status": "proved",
   "theorems": [
    "S2N.Props.C84_parameters",
    "S2N.Props.C84_nonvacuous",
    "S2N.Props.C84_example"
   ],
   "note": ""
  },
  {
   "property": "C85",
   "status": "proved",
   "theorems": [
    "S2N.Props.C85_arrays",
    "S2N.Props.C85_nonvacuous",
    "S2N.Props.C85_example"
   ],
   "note": ""
  },
  {
   "property": "C86",
   "status": "proved",
   "theorems": [
    "S2N.Props.C86_diffractometer",
    "S2N.Props.C86_nonvacuous",
    "S2N.Props.C86_example"
   ],
   "note": ""
  },
  {
   "property": "C87",
   "status": "proved",
   "theorems": [
    "S2N.Props.C87_temperature",
    "S2N.Props.C87_example",
    "S2N.Props.C87_without_geometry"
   ],
   "note": ""
  },
  {
   "property": "C88",
   "status": "proved",
   "theorems": [
    "S2N.Props.C88_nothing_else",
    "S2N.Props.C88_example"
   ],
   "note": ""
  },
  {
   "property": "C89",
   "status": "proved",
   "theorems": [
    "S2N.Props.C89_save_does_not_raise",
    "S2N.Props.C89_nonvacuous",
    "S2N.Props.C89_needed"
   ],
   "note": ""
  },
  {
   "property": "C90",
   "status": "proved",
   "theorems": [
    "S2N.Props.C90_data",
    "S2N.Props.C90_nonvacuous",
    "S2N.Props.C90_text",
    "S2N.Props.C90_example"
   ],
   "note": ""
  },
  {
   "property": "C91",
   "status": "proved",
   "theorems": [
    "S2N.Props.C91_comments",
    "S2N.Props.C91_results",
    "S2N.Props.C91_reserved",
    "S2N.Props.C91_unrecognized",
    "S2N.Props.C91_hkl",
    "S2N.Props.C91_monitor",
    "S2N.Props.C91_time",
    "S2N.Props.C91_positions",
    "S2N.Props.C91_example"
   ],
   "note": ""
  },
  {
   "property": "C92",
   "status": "proved",
   "theorems": [
    "S2N.Props.C92_interprets",
    "S2N.Props.C92_nonvacuous",
    "S2N.Props.C92_needed"
   ],
   "note": ""
  },
  {
   "property": "C93",
   "status": "proved",
   "theorems": [
    "S2N.Props.C93_opens",
    "S2N.Props.C93_nonvacuous",
    "S2N.Props.C93_needed"
   ],
   "note": ""
  },
  {
   "property": "C94",
   "status": "proved",
   "theorems": [
    "S2N.Props.C94_nonvacuous",
    "S2N.Props.C94_reads"
   ],
   "note": ""
  },
  {
   "property": "C95",
   "status": "proved",
   "theorems": [
    "S2N.Props.C95_converts",
    "S2N.Props.C95_nonvacuous",
    "S2N.Props.C95_needed",
    "S2N.Props.C95_mesh_nonvacuous",
    "S2N.Props.C95_mesh_needed"
   ],
   "note": ""
  },
  {
   "property": "C96",
   "status": "proved",
   "theorems": [
    "S2N.Props.C96_identity",
    "S2N.Props.C96_date",
    "S2N.Props.C96_values",
    "S2N.Props.C96_mca",
    "S2N.Props.C96_geometry",
    "S2N.Props.C96_metadata",
    "S2N.Props.C96_nonvacuous",
    "S2N.Props.C96_text",
    "S2N.Props.C96_form",
    "S2N.Props.C96_example",
    "S2N.Props.C96_setpoints",
    "S2N.Props.C96_temperature"
   ],
   "note": ""
  },
  {
   "property": "C97",
   "status": "proved",
   "theorems": [
    "S2N.Props.C97_headers",
    "S2N.Props.C97_results",
    "S2N.Props.C97_reserved",
    "S2N.Props.C97_unrecognized",
    "S2N.Props.C97_counters",
    "S2N.Props.C97_positioners",
    "S2N.Props.C97_positions",
    "S2N.Props.C97_values",
    "S2N.Props.C97_file",
    "S2N.Props.C97_nonvacuous",
    "S2N.Props.C97_example"
   ],
   "note": ""
  },
  {
   "property": "C98",
   "status": "proved",
   "theorems": [
    "S2N.Props.C98_diffractometer",
    "S2N.Props.C98_none",
    "S2N.Props.C98_nonvacuous",
    "S2N.Props.C98_numbers",
    "S2N.Props.C98_stated",
    "S2N.Props.C98_example",
    "S2N.Props.C98_unique"
   ],
   "note": ""
  },
  {
   "property": "C99",
   "status": "proved",
   "theorems": [
    "S2N.Props.C99_headers",
    "S2N.Props.C99_parameters",
    "S2N.Props.C99_metadata",
    "S2N.Props.C99_document",
    "S2N.Props.C99_temperature",
    "S2N.Props.C99_mca",
    "S2N.Props.C99_nonvacuous",
    "S2N.Props.C99_text",
    "S2N.Props.C99_example"
   ],
   "note": ""
  },
  {
   "property": "C100",
   "status": "proved",
   "theorems": [
    "S2N.Props.C100_known",
    "S2N.Props.C100_str",
    "S2N.Props.C100_brief",
    "S2N.Props.C100_all",
    "S2N.Props.C100_no_numbers",
    "S2N.Props.C100_no_matrix",
    "S2N.Props.C100_aligned_unique",
    "S2N.Props.C100_motors",
    "S2N.Props.C100_nonvacuous",
    "S2N.Props.C100_example",
    "S2N.Props.C100_counterexample"
   ],
   "note": ""
  },
  {
   "property": "C101",
   "status": "proved",
   "theorems": [
    "S2N.Props.C101_tells",
    "S2N.Props.C101_source",
    "S2N.Props.C101_same",
    "S2N.Props.C101_run",
    "S2N.Props.C101_nonvacuous",
    "S2N.Props.C101_run_nonvacuous",
    "S2N.Props.C101_quote"
   ],
   "note": "For texts without the characters of the marks (PagePlain); C101_quote: a command with a double quote is not escaped and breaks its link, for every such command. C101_run joins it to C72."
  },
  {
   "property": "C102",
   "status": "proved",
   "theorems": [
    "S2N.Props.C102_files",
    "S2N.Props.C102_spec_files",
    "S2N.Props.C102_refuses",
    "S2N.Props.C102_stops",
    "S2N.Props.C102_only_own",
    "S2N.Props.C102_again",
    "S2N.Props.C102_command_again",
    "S2N.Props.C102_nonvacuous",
    "S2N.Props.C102_again_nonvacuous"
   ],
   "note": "For files with a gallery directory (Galleried, as in C51, C73); C102_files, C102_refuses, C102_stops need no such hypothesis. The listing of a directory is any list of names."
  },
  {
   "property": "C103",
   "status": "proved",
   "theorems": [
    "S2N.Props.C103_packaged",
    "S2N.Props.C103_dispatch",
    "S2N.Props.C103_keeps",
    "S2N.Props.C103_literal",
    "S2N.Props.C103_added",
    "S2N.Props.C103_none",
    "S2N.Props.C103_refuses",
    "S2N.Props.C103_installs",
    "S2N.Props.C103_stops",
    "S2N.Props.C103_nonvacuous",
    "S2N.Props.C103_half"
   ],
   "note": ""
  },
  {
   "property": "C104",
   "status": "proved",
   "theorems": [
    "S2N.Props.C104_boundaries",
    "S2N.Props.C104_centre",
    "S2N.Props.C104_inside",
    "S2N.Props.C104_outside",
    "S2N.Props.C104_positive",
    "S2N.Props.C104_invalid",
    "S2N.Props.C104_floor",
    "S2N.Props.C104_zero",
    "S2N.Props.C104_nan",
    "S2N.Props.C104_log",
    "S2N.Props.C104_log_order",
    "S2N.Props.C104_log_flat",
    "S2N.Props.C104_drawn",
    "S2N.Props.C104_one",
    "S2N.Props.C104_line",
    "S2N.Props.C104_line_log",
    "S2N.Props.C104_mesh",
    "S2N.Props.C104_scan",
    "S2N.Props.C104_nonvacuous",
    "S2N.Props.C104_first_row"
   ],
   "note": ""
  },
  {
   "property": "C105",
   "status": "proved",
   "theorems": [
    "S2N.Props.C105_fails",
    "S2N.Props.C105_written",
    "S2N.Props.C105_older",
    "S2N.Props.C105_again",
    "S2N.Props.C105_refused",
    "S2N.Props.C105_plots",
    "S2N.Props.C105_mesh",
    "S2N.Props.C105_nonvacuous"
   ],
   "note": ""
  },
  {
   "property": "C106",
   "status": "proved",
   "theorems": [
    "S2N.Props.C106_left",
    "S2N.Props.C106_complete",
    "S2N.Props.C106_twice",
    "S2N.Props.C106_missing",
    "S2N.Props.C106_nonvacuous"
   ],
   "note": ""
  },
  {
   "property": "C107",
   "status": "proved",
   "theorems": [
    "S2N.Props.C107_alone",
    "S2N.Props.C107_order",
    "S2N.Props.C107_fails",
    "S2N.Props.C107_iff",
    "S2N.Props.C107_nonvacuous",
    "S2N.Props.C107_labels_matter",
    "S2N.Props.C107_O_lines_matter"
   ],
   "note": ""
  },
  {
   "property": "C108",
   "status": "proved",
   "theorems": [
    "S2N.Props.C108_dated",
    "S2N.Props.C108_scans",
    "S2N.Props.C108_entry",
    "S2N.Props.C108_converted",
    "S2N.Props.C108_append",
    "S2N.Props.C108_nonvacuous",
    "S2N.Props.C108_P_lines_matter"
   ],
   "note": ""
  },
  {
   "property": "C109",
   "status": "proved",
   "theorems": [
    "S2N.Props.C109_line",
    "S2N.Props.C109_hkl",
    "S2N.Props.C109_extract",
    "S2N.Props.C109_nonvacuous",
    "S2N.Props.C109_hkl_differs",
    "S2N.Props.C109_hkl_nonvacuous"
   ],
   "note": ""
  },
  {
   "property": "C110",
   "status": "proved",
   "theorems": [
    "S2N.Props.C110_save",
    "S2N.Props.C110_read",
    "S2N.Props.C110_nonvacuous",
    "S2N.Props.C110_unreadable_matters",
    "S2N.Props.C110_mesh_matters"
   ],
   "note": ""
  },
  {
   "property": "C111",
   "status": "proved",
   "theorems": [
    "S2N.Props.C111_scans",
    "S2N.Props.C111_getScan",
    "S2N.Props.C111_entry",
    "S2N.Props.C111_nonvacuous",
    "S2N.Props.C111_last_scan"
   ],
   "note": ""
  },
  {
   "property": "C112",
   "status": "proved",
   "theorems": [
    "S2N.Props.C112_same",
    "S2N.Props.C112_new",
    "S2N.Props.C112_answers",
    "S2N.Props.C112_match",
    "S2N.Props.C112_direct",
    "S2N.Props.C112_second",
    "S2N.Props.C112_failed",
    "S2N.Props.C112_failed_match",
    "S2N.Props.C112_reset",
    "S2N.Props.C112_nonvacuous"
   ],
   "note": ""
  },
  {
   "property": "C113",
   "status": "proved",
   "theorems": [
    "S2N.Props.C113_new",
    "S2N.Props.C113_line",
    "S2N.Props.C113_hkl",
    "S2N.Props.C113_titles_stay",
    "S2N.Props.C113_nonvacuous",
    "S2N.Props.C113_mesh_again",
    "S2N.Props.C113_hkl_again",
    "S2N.Props.C113_mesh",
    "S2N.Props.C113_mesh_stale",
    "S2N.Props.C113_mesh_titles",
    "S2N.Props.C113_mesh_apart",
    "S2N.Props.C113_mesh_nonvacuous"
   ],
   "note": ""
  },
  {
   "property": "C114",
   "status": "proved",
   "theorems": [
    "S2N.Props.C114_save",
    "S2N.Props.C114_read",
    "S2N.Props.C114_plot",
    "S2N.Props.C114_changes",
    "S2N.Props.C114_nonvacuous",
    "S2N.Props.C114_mesh_matters",
    "S2N.Props.C114_hkl_matters"
   ],
   "note": ""
  },
  {
   "property": "C115",
   "status": "proved",
   "theorems": [
    "S2N.Props.C115_file",
    "S2N.Props.C115_every_text",
    "S2N.Props.C115_short",
    "S2N.Props.C115_shared",
    "S2N.Props.C115_exactly",
    "S2N.Props.C115_nonvacuous"
   ],
   "note": ""
  }
 ]
}