{
 "claims": [
  {
   "property": "C01",
   "status": "proved",
   "theorems": [
    "Props.C01_again",
    "Props.C01_round_trip_iff",
    "Props.C01_frame"
   ],
   "note": ""
  },
  {
   "property": "C02",
   "status": "proved",
   "theorems": [
    "Props.C02_lines_clean",
    "Props.C02_stable",
    "Props.C02_newline_only"
   ],
   "note": ""
  },
  {
   "property": "C03",
   "status": "proved",
   "theorems": [
    "Props.C03_find_line_ok",
    "Props.C03_find_line_error",
    "Props.C03_find_line_cases"
   ],
   "note": ""
  },
  {
   "property": "C04",
   "status": "proved",
   "theorems": [
    "Props.C04_clean_and_split",
    "Props.C04_cleaner",
    "Props.C04_cleaner_shape"
   ],
   "note": ""
  },
  {
   "property": "C05",
   "status": "proved",
   "theorems": [
    "Props.C05_find_ind_ok",
    "Props.C05_find_ind_error"
   ],
   "note": ""
  },
  {
   "property": "C06",
   "status": "proved",
   "theorems": [
    "Props.C06_first_positions",
    "Props.C06_none_and_head"
   ],
   "note": ""
  },
  {
   "property": "C07",
   "status": "partial",
   "theorems": [
    "Props.C07_empty_violated",
    "Props.C07_cases",
    "Props.C07_dimensions_partial",
    "Props.C07_rectangular_partial",
    "Props.C07_violated"
   ],
   "note": "Violated as stated: the loop never ends when the chain of first elements reaches an empty list (C07_violated). The partial theorems characterise the result exactly in all other cases. C07_empty_violated and C07_cases: so for every such list, and there is no third case."
  },
  {
   "property": "C08",
   "status": "partial",
   "theorems": [
    "Props.C08_carriage_return_violated",
    "Props.C08_replaced_functional",
    "Props.C08_replace_partial",
    "Props.C08_frame",
    "Props.C08_violated"
   ],
   "note": "Violated for files containing \\r: reading normalises newlines, so a CRLF file is rewritten even when nothing matches (C08_violated). Holds for every file without \\r; for the others the exact effect is stated. C08_carriage_return_violated: every file with \\r is changed."
  },
  {
   "property": "C09",
   "status": "proved",
   "theorems": [
    "Props.C09_laws",
    "Props.C09_meaning",
    "Props.C09_not_transitive"
   ],
   "note": ""
  },
  {
   "property": "C10",
   "status": "proved",
   "theorems": [
    "Props.C10_again",
    "Props.C10_find_tabs",
    "Props.C10_replace_tab",
    "Props.C10_no_tabs_left",
    "Props.C10_pieces"
   ],
   "note": ""
  },
  {
   "property": "C11",
   "status": "proved",
   "theorems": [
    "Props.C11_again",
    "Props.C11_setup",
    "Props.C11_get_logger",
    "Props.C11_never_duplicates",
    "Props.C11_unknown_level"
   ],
   "note": ""
  },
  {
   "property": "C12",
   "status": "proved",
   "theorems": [
    "Props.C12_words_preserved"
   ],
   "note": ""
  },
  {
   "property": "C13",
   "status": "partial",
   "theorems": [
    "Props.C13_prefix_violated",
    "Props.C13_token_violated",
    "Props.C13_exact",
    "Props.C13_width_partial",
    "Props.C13_width_fits_partial",
    "Props.C13_violated"
   ],
   "note": "Violated: a token that fits the width alone is emitted behind the continuation prefix without checking again, and a long prefix is never broken (C13_violated). The partial theorems show these are the only two ways a line can be too long. C13_prefix_violated, C13_token_violated: they always do; C13_exact gives the exact condition for a prefix not shorter than the continuation text."
  },
  {
   "property": "C14",
   "status": "proved",
   "theorems": [
    "Props.C14_error_iff",
    "Props.C14_error_iff_nonneg",
    "Props.C14_shape"
   ],
   "note": ""
  },
  {
   "property": "C15",
   "status": "partial",
   "theorems": [
    "Props.C15_first_token_violated",
    "Props.C15_shape",
    "Props.C15_round_trip_partial",
    "Props.C15_first_token_fits",
    "Props.C15_bare_name_violated",
    "Props.C15_material"
   ],
   "note": "Violated when the first token does not fit behind the card name: the name stands alone on its line and get_card_lines does not find it (C15_bare_name_violated). Proved for every other case; C15_material shows the material reader accepts the bare name. C15_first_token_violated: so for every such card."
  },
  {
   "property": "C16",
   "status": "proved",
   "theorems": [
    "Props.C16_mismatch",
    "Props.C16_rows"
   ],
   "note": ""
  },
  {
   "property": "C17",
   "status": "proved",
   "theorems": [
    "Props.C17_csv",
    "Props.C17_html",
    "Props.C17_incomplete",
    "Props.C17_single",
    "Props.C17_page"
   ],
   "note": ""
  },
  {
   "property": "C18",
   "status": "partial",
   "theorems": [
    "Props.C18_violated",
    "Props.C18_lines_partial",
    "Props.C18_tests_violated"
   ],
   "note": "Violated for every object: html_output ends in ut.write_html, which does not exist, so it always raises and never writes (C18_violated; with fewer than ten test results it raises IndexError before, C18_tests_violated). The lines it makes are a well formed page with a section for each tally (C18_lines_partial)."
  },
  {
   "property": "C19",
   "status": "proved",
   "theorems": [
    "Props.C19_tail",
    "Props.C19_missing",
    "Props.C19_idempotent"
   ],
   "note": ""
  },
  {
   "property": "C20",
   "status": "proved",
   "theorems": [
    "Props.C20_bad_number",
    "Props.C20_complete"
   ],
   "note": ""
  },
  {
   "property": "C21",
   "status": "proved",
   "theorems": [
    "Props.C21_filters",
    "Props.C21_rejects",
    "Props.C21_algebra",
    "Props.C21_nan"
   ],
   "note": ""
  },
  {
   "property": "C22",
   "status": "proved",
   "theorems": [
    "Props.C22_table",
    "Props.C22_only_complete_tables"
   ],
   "note": ""
  },
  {
   "property": "C23",
   "status": "partial",
   "theorems": [
    "Props.C23_other_file_violated",
    "Props.C23_errors_partial",
    "Props.C23_violated"
   ],
   "note": "Violated: a file without the 'fispact run time' line (for instance truncated or empty) ends in UnboundLocalError, not IOError (C23_violated). The partial theorem shows this is the only wrong outcome. C23_other_file_violated: so for every file without that line and without the ' FD ' line."
  },
  {
   "property": "C24",
   "status": "proved",
   "theorems": [
    "Props.C24_directory",
    "Props.C24_no_directory"
   ],
   "note": ""
  },
  {
   "property": "C25",
   "status": "proved",
   "theorems": [
    "Props.C25_awr",
    "Props.C25_read"
   ],
   "note": ""
  },
  {
   "property": "C26",
   "status": "partial",
   "theorems": [
    "Props.C26_path_violated",
    "Props.C26_datapath_partial",
    "Props.C26_violated"
   ],
   "note": "Violated: the line is lower-cased before the path is cut out, and the path stops at a second '=' (C26_violated). The partial theorem states the exact result. C26_path_violated: so for every path with a capital letter or a second '='."
  },
  {
   "property": "C27",
   "status": "partial",
   "theorems": [
    "Props.C27_decode_partial",
    "Props.C27_violated"
   ],
   "note": "Holds for every section with at least one history (C27_decode_partial); an empty section gives [None] (C27_violated)."
  },
  {
   "property": "C28",
   "status": "partial",
   "theorems": [
    "Props.C28_equality_partial",
    "Props.C28_violated"
   ],
   "note": "Field-wise equality holds between events; comparing with a non-event returns the class NotImplementedError, which is truthy (C28_violated)."
  },
  {
   "property": "C29",
   "status": "proved",
   "theorems": [
    "Props.C29_mean"
   ],
   "note": ""
  },
  {
   "property": "C30",
   "status": "proved",
   "theorems": [
    "Props.C30_header"
   ],
   "note": ""
  },
  {
   "property": "C31",
   "status": "partial",
   "theorems": [
    "Props.C31_pairs_partial",
    "Props.C31_violated"
   ],
   "note": "Six pairs are proved inverse. Bq/Ci (2.703e11 and 3.7e-12; exponents wrong) and s/year (365.25 against 365 days) are proved NOT inverse for every non-zero value (C31_violated)."
  },
  {
   "property": "C32",
   "status": "partial",
   "theorems": [
    "Props.C32_chains_partial",
    "Props.C32_linear_partial",
    "Props.C32_violated"
   ],
   "note": "Year/day/hour/second chains, linearity and monotony hold; shake_to_ms is a factor 1000 too large against shake_to_second (C32_violated)."
  },
  {
   "property": "C33",
   "status": "proved",
   "theorems": [
    "Props.C33_elements",
    "Props.C33_symbols"
   ],
   "note": ""
  },
  {
   "property": "C34",
   "status": "proved",
   "theorems": [
    "Props.C34_bin",
    "Props.C34_outside",
    "Props.C34_total_monotone",
    "Props.C34_upper_bound",
    "Props.C34_rejected"
   ],
   "note": ""
  },
  {
   "property": "C35",
   "status": "proved",
   "theorems": [
    "Props.C35_tables",
    "Props.C35_ranges",
    "Props.C35_names"
   ],
   "note": ""
  },
  {
   "property": "C36",
   "status": "proved",
   "theorems": [
    "Props.C36_domain",
    "Props.C36_vector"
   ],
   "note": ""
  },
  {
   "property": "C37",
   "status": "partial",
   "theorems": [
    "Props.C37_reverse_partial",
    "Props.C37_total_partial",
    "Props.C37_violated",
    "Props.C37_not_ascending_violated",
    "Props.C37_rejected"
   ],
   "note": "Holds for spectra whose values never decrease; the code tests the flux values, not the energies, for order and refuses every other spectrum (C37_violated). C37_not_ascending_violated: so for every such spectrum."
  },
  {
   "property": "C38",
   "status": "partial",
   "theorems": [
    "Props.C38_709_partial",
    "Props.C38_violated",
    "Props.C38_write_errors",
    "Props.C38_rejected"
   ],
   "note": "Proved for the 709 structure. The 162 structure is tabulated in eV, so energies in MeV fall into its lowest group (C38_violated)."
  },
  {
   "property": "C39",
   "status": "proved",
   "theorems": [
    "Props.C39_widths",
    "Props.C39_positive"
   ],
   "note": ""
  },
  {
   "property": "C40",
   "status": "proved",
   "theorems": [
    "Props.C40_mid_points",
    "Props.C40_increasing"
   ],
   "note": ""
  },
  {
   "property": "C41",
   "status": "proved",
   "theorems": [
    "Props.C41_peak",
    "Props.C41_empty",
    "Props.C41_any_shape",
    "Props.C41_errors"
   ],
   "note": ""
  },
  {
   "property": "C42",
   "status": "proved",
   "theorems": [
    "Props.C42_normalise",
    "Props.C42_abs_errors"
   ],
   "note": ""
  },
  {
   "property": "C43",
   "status": "proved",
   "theorems": [
    "Props.C43_reduce"
   ],
   "note": ""
  },
  {
   "property": "C44",
   "status": "proved",
   "theorems": [
    "Props.C44_filters",
    "Props.C44_algebra",
    "Props.C44_presence",
    "Props.C44_read"
   ],
   "note": ""
  },
  {
   "property": "C45",
   "status": "proved",
   "theorems": [
    "Props.C45_rows",
    "Props.C45_fractions",
    "Props.C45_zaid_injective"
   ],
   "note": ""
  },
  {
   "property": "C46",
   "status": "proved",
   "theorems": [
    "Props.C46_units"
   ],
   "note": ""
  },
  {
   "property": "C47",
   "status": "proved",
   "theorems": [
    "Props.C47_decision",
    "Props.C47_monotone"
   ],
   "note": ""
  },
  {
   "property": "C48",
   "status": "partial",
   "theorems": [
    "Props.C48_inventory_partial"
   ],
   "note": "Holds whenever at least one nuclide is active, or pandas returns an empty result for apply on an empty frame; older pandas versions raise ValueError there, so the empty case is a parameter of the model."
  },
  {
   "property": "C49",
   "status": "partial",
   "theorems": [
    "Props.C49_first_partial",
    "Props.C49_violated",
    "Props.C49_path_violated"
   ],
   "note": "Violated: the limits file given by the caller is ignored in favour of data/t1.txt (C49_violated). Partial: the first passing step with respect to the default file. C49_path_violated: the name of the file makes no difference for any inventory."
  },
  {
   "property": "C50",
   "status": "partial",
   "theorems": [
    "Props.C50_chart_partial",
    "Props.C50_default_partial",
    "Props.C50_violated",
    "Props.C50_error_violated",
    "Props.C50_oganesson_violated"
   ],
   "note": "Violated for Z = 118 and A = 294: the default view leaves them out and a larger view raises IndexError (C50_violated). Exact for every other view. C50_error_violated gives the exact condition for the IndexError; C50_oganesson_violated: nothing of Z = 118 is ever shown by default."
  },
  {
   "property": "C51",
   "status": "proved",
   "theorems": [
    "Props.C51_mids",
    "Props.C51_exact",
    "Props.C51_error",
    "Props.C51_count",
    "Props.C51_rounding_unique",
    "Props.C51_rounding"
   ],
   "note": ""
  },
  {
   "property": "C52",
   "status": "partial",
   "theorems": [
    "Props.C52_uniform_partial",
    "Props.C52_violated",
    "Props.C52_average_partial",
    "Props.C52_numbers_violated",
    "Props.C52_no_mids_violated",
    "Props.C52_no_bounds_violated"
   ],
   "note": "Holds for equally spaced bounds (C52_uniform_partial) and for bounds given as numbers that start at 0 (C52_average_partial). For a non-uniform mesh read from a file the call always raises TypeError (C52_violated), and ValueError whenever an axis with numeric bounds does not start at 0 (C52_numbers_violated) or the first axis has no bounds (C52_no_bounds_violated). Without mid points the average is no number (C52_no_mids_violated)."
  },
  {
   "property": "C53",
   "status": "proved",
   "theorems": [
    "Props.C53_nearest"
   ],
   "note": ""
  },
  {
   "property": "C54",
   "status": "partial",
   "theorems": [
    "Props.C54_unequal_violated",
    "Props.C54_unequal_before_violated",
    "Props.C54_uniform_partial",
    "Props.C54_violated"
   ],
   "note": "Holds for equal intervals and points strictly inside a voxel. With unequal intervals the nearest mid point need not belong to the voxel that contains the point (C54_violated). C54_unequal_violated, C54_unequal_before_violated: every mesh with two neighbouring intervals of different widths has such points."
  },
  {
   "property": "C55",
   "status": "partial",
   "theorems": [
    "Props.C55_zero_violated",
    "Props.C55_filter_partial",
    "Props.C55_violated"
   ],
   "note": "Holds for every request other than 0; the request 0 is treated as no request (C55_violated). C55_zero_violated: for every table."
  },
  {
   "property": "C56",
   "status": "partial",
   "theorems": [
    "Props.C56_values_partial",
    "Props.C56_plane_partial",
    "Props.C56_violated",
    "Props.C56_transposed_violated",
    "Props.C56_no_errors_violated",
    "Props.C56_ragged_violated",
    "Props.C56_right_only_if_symmetric"
   ],
   "note": "The values and the plane names are right; the relative errors are selected with the wrong axis and come out transposed (C56_violated). For every complete mesh: transposed if the two directions of the plane have the same mid points (C56_transposed_violated), empty if they have none in common (C56_no_errors_violated), ValueError if they have some in common (C56_ragged_violated); right only if the errors are symmetric (C56_right_only_if_symmetric)."
  },
  {
   "property": "C57",
   "status": "proved",
   "theorems": [
    "Props.C57_line",
    "Props.C57_point",
    "Props.C57_bins"
   ],
   "note": ""
  },
  {
   "property": "C58",
   "status": "proved",
   "theorems": [
    "Props.C58_bands",
    "Props.C58_columns"
   ],
   "note": ""
  },
  {
   "property": "C59",
   "status": "partial",
   "theorems": [
    "Props.C59_sum_partial",
    "Props.C59_refused_partial",
    "Props.C59_violated"
   ],
   "note": "Holds for six-column meshes; five-column meshes always raise UnboundLocalError (C59_violated)."
  },
  {
   "property": "C60",
   "status": "partial",
   "theorems": [
    "Props.C60_bound_partial",
    "Props.C60_violated"
   ],
   "note": "Violated: relative errors are added in quadrature without weights (C60_violated). The partial theorem shows the reported error is an upper bound and when it is exact."
  },
  {
   "property": "C61",
   "status": "partial",
   "theorems": [
    "Props.C61_array_partial",
    "Props.C61_faithful_partial",
    "Props.C61_violated"
   ],
   "note": "Holds for six-column meshes; five-column meshes with data always raise IndexError (C61_violated)."
  },
  {
   "property": "C62",
   "status": "partial",
   "theorems": [
    "Props.C62_count_partial",
    "Props.C62_violated"
   ],
   "note": "Holds when there is a zero voxel; otherwise KeyError instead of 0 (C62_violated)."
  },
  {
   "property": "C63",
   "status": "proved",
   "theorems": [
    "Props.C63_index",
    "Props.C63_index_error",
    "Props.C63_next"
   ],
   "note": ""
  },
  {
   "property": "C64",
   "status": "partial",
   "theorems": [
    "Props.C64_time_zero_violated",
    "Props.C64_all_partial",
    "Props.C64_violated",
    "Props.C64_violated_total",
    "Props.C64_file_partial"
   ],
   "note": "Holds when only the first mesh of the file is of energy type and has no total rows. An energy mesh after the first one always raises ValueError (C64_violated), as does a total row in an energy mesh (C64_violated_total). Rows of a time mesh whose time bin ends at 0 are left out as if they were totals (C64_time_zero_violated)."
  },
  {
   "property": "C65",
   "status": "partial",
   "theorems": [
    "Props.C65_select_partial",
    "Props.C65_violated"
   ],
   "note": "Holds for meshes followed by another mesh (the data stay unconverted); a request for the last mesh returns the list of all meshes (C65_violated)."
  },
  {
   "property": "C66",
   "status": "proved",
   "theorems": [
    "Props.C66_uniform",
    "Props.C66_equal",
    "Props.C66_empty",
    "Props.C66_single"
   ],
   "note": ""
  },
  {
   "property": "C67",
   "status": "proved",
   "theorems": [
    "Props.C67_version",
    "Props.C67_first_fifty"
   ],
   "note": ""
  },
  {
   "property": "C68",
   "status": "partial",
   "theorems": [
    "Props.C68_summary_block_partial",
    "Props.C68_missing_end_violated",
    "Props.C68_all_violated"
   ],
   "note": "Location and the ValueError for a missing banner are proved; a missing '0 Mass' line raises StopIteration instead of ValueError (C68_missing_end_violated). C68_all_violated: for every file with the banner."
  },
  {
   "property": "C69",
   "status": "partial",
   "theorems": [
    "Props.C69_time_columns_partial",
    "Props.C69_bad_argument",
    "Props.C69_year_length_violated",
    "Props.C69_overwritten_base_violated",
    "Props.C69_days_violated",
    "Props.C69_hours_violated"
   ],
   "note": "Consistency and preservation are proved for every base column other than time_days and time_hours; with those the base is overwritten (C69_overwritten_base_violated; for all tables C69_days_violated and C69_hours_violated). The year has 365.4 days where neut_constants.years_to_days has 365.25 (C69_year_length_violated)."
  },
  {
   "property": "C70",
   "status": "proved",
   "theorems": [
    "Props.C70_summary",
    "Props.C70_total"
   ],
   "note": ""
  },
  {
   "property": "C71",
   "status": "proved",
   "theorems": [
    "Props.C71_retrieve",
    "Props.C71_first_index"
   ],
   "note": ""
  },
  {
   "property": "C72",
   "status": "proved",
   "theorems": [
    "Props.C72_composition",
    "Props.C72_error",
    "Props.C72_missing"
   ],
   "note": ""
  },
  {
   "property": "C73",
   "status": "proved",
   "theorems": [
    "Props.C73_spectrum",
    "Props.C73_error"
   ],
   "note": ""
  },
  {
   "property": "C74",
   "status": "proved",
   "theorems": [
    "Props.C74_inventory",
    "Props.C74_error",
    "Props.C74_names"
   ],
   "note": "The statement about names is for lines whose only white space is blanks."
  },
  {
   "property": "C75",
   "status": "proved",
   "theorems": [
    "Props.C75_steps",
    "Props.C75_form"
   ],
   "note": ""
  },
  {
   "property": "C76",
   "status": "proved",
   "theorems": [
    "Props.C76_parameter",
    "Props.C76_error"
   ],
   "note": "'First word' is the text up to the first blank after stripping, between the first and second '='."
  },
  {
   "property": "C77",
   "status": "proved",
   "theorems": [
    "Props.C77_read_mass",
    "Props.C77_unique"
   ],
   "note": ""
  },
  {
   "property": "C78",
   "status": "proved",
   "theorems": [
    "Props.C78_blocks",
    "Props.C78_error"
   ],
   "note": ""
  },
  {
   "property": "C79",
   "status": "partial",
   "theorems": [
    "Props.C79_eighty_violated",
    "Props.C79_reports_from_80",
    "Props.C79_long_lines_partial",
    "Props.C79_violated"
   ],
   "note": "Violated at exactly 80 characters: the line is reported although it is not longer than 80 (C79_violated). Proved for files without 80 character lines, and the exact behaviour in C79_reports_from_80. C79_eighty_violated: every such line without comment."
  },
  {
   "property": "C80",
   "status": "proved",
   "theorems": [
    "Props.C80_inline",
    "Props.C80_inline_comment",
    "Props.C80_full_line"
   ],
   "note": ""
  },
  {
   "property": "C81",
   "status": "proved",
   "theorems": [
    "Props.C81_card_lines",
    "Props.C81_absent",
    "Props.C81_cases"
   ],
   "note": ""
  },
  {
   "property": "C82",
   "status": "proved",
   "theorems": [
    "Props.C82_mode_none",
    "Props.C82_mode",
    "Props.C82_mode_blank",
    "Props.C82_valid"
   ],
   "note": ""
  },
  {
   "property": "C83",
   "status": "proved",
   "theorems": [
    "Props.C83_material",
    "Props.C83_words",
    "Props.C83_errors",
    "Props.C83_blank_around_equals"
   ],
   "note": ""
  },
  {
   "property": "C84",
   "status": "partial",
   "theorems": [
    "Props.C84_undefined_material",
    "Props.C84_undefined_violated",
    "Props.C84_defined_nonempty_partial"
   ],
   "note": "Violated: an undefined material and a material card without entries give the same object (C84_undefined_violated). Distinguishable from every defined material with at least one entry."
  },
  {
   "property": "C85",
   "status": "partial",
   "theorems": [
    "Props.C85_lines_violated",
    "Props.C85_importance_lines_partial",
    "Props.C85_surfaces_lost_violated",
    "Props.C85_block_violated",
    "Props.C85_shared_importance_violated"
   ],
   "note": "Violated: a continuation line never adds surfaces (C85_surfaces_lost_violated, for all lines), and an importance for two particles is stored for the first only. Proved for cards whose continuation lines hold one importance each."
  },
  {
   "property": "C86",
   "status": "proved",
   "theorems": [
    "Props.C86_title_digit_any",
    "Props.C86_one_line_cells",
    "Props.C86_title_digit"
   ],
   "note": ""
  },
  {
   "property": "C87",
   "status": "proved",
   "theorems": [
    "Props.C87_get_cell",
    "Props.C87_queries",
    "Props.C87_material_exists"
   ],
   "note": ""
  },
  {
   "property": "C88",
   "status": "partial",
   "theorems": [
    "Props.C88_surfaces_partial",
    "Props.C88_unknown_type_partial",
    "Props.C88_blank_line_violated",
    "Props.C88_separator_violated",
    "Props.C88_reflecting_limit",
    "Props.C88_blanks_before_violated",
    "Props.C88_blanks_behind_violated"
   ],
   "note": "Violated for blank lines with five or more blanks, which count as continuation lines: before the first card the block is refused (C88_blanks_before_violated), behind a card they add an empty parameter (C88_blanks_behind_violated); instances C88_blank_line_violated, C88_separator_violated. Proved for all other layouts."
  },
  {
   "property": "C89",
   "status": "partial",
   "theorems": [
    "Props.C89_violated",
    "Props.C89_no_comment_partial"
   ],
   "note": "Violated for every surface card with an inline comment separated by a blank (C89_violated). Holds for cards without '$'."
  },
  {
   "property": "C90",
   "status": "partial",
   "theorems": [
    "Props.C90_tally_partial",
    "Props.C90_undocumented_flags_partial",
    "Props.C90_documented_flags_violated",
    "Props.C90_tal_type",
    "Props.C90_starred_tally_lost"
   ],
   "note": "The flags are kept in attributes other than the documented ones (C90_documented_flags_violated). Text and presence tests are proved exactly."
  },
  {
   "property": "C91",
   "status": "proved",
   "theorems": [
    "Props.C91_material_numbers",
    "Props.C91_tally_numbers",
    "Props.C91_error",
    "Props.C91_limits"
   ],
   "note": ""
  },
  {
   "property": "C92",
   "status": "partial",
   "theorems": [
    "Props.C92_absent_partial",
    "Props.C92_violated"
   ],
   "note": "Violated by every file containing mphys: each run inserts another 'c ' (C92_violated). Proved for files without it."
  },
  {
   "property": "C93",
   "status": "partial",
   "theorems": [
    "Props.C93_numbers_partial",
    "Props.C93_long_numbers_violated"
   ],
   "note": "Five blanks are required behind '1tally', so numbers of five to eight digits are never found (C93_long_numbers_violated). What is returned is proved exactly, and numbers of up to four digits are always found."
  },
  {
   "property": "C94",
   "status": "proved",
   "theorems": [
    "Props.C94_index",
    "Props.C94_count",
    "Props.C94_last",
    "Props.C94_term"
   ],
   "note": ""
  },
  {
   "property": "C95",
   "status": "proved",
   "theorems": [
    "Props.C95_final_results",
    "Props.C95_no_header"
   ],
   "note": ""
  },
  {
   "property": "C96",
   "status": "proved",
   "theorems": [
    "Props.C96_comments",
    "Props.C96_fatal"
   ],
   "note": ""
  },
  {
   "property": "C97",
   "status": "proved",
   "theorems": [
    "Props.C97_pairs",
    "Props.C97_errors"
   ],
   "note": ""
  },
  {
   "property": "C98",
   "status": "proved",
   "theorems": [
    "Props.C98_time_bins",
    "Props.C98_time_bins_total",
    "Props.C98_energy_bins",
    "Props.C98_no_energy"
   ],
   "note": ""
  },
  {
   "property": "C99",
   "status": "proved",
   "theorems": [
    "Props.C99_cells",
    "Props.C99_surfaces",
    "Props.C99_same",
    "Props.C99_surface_zero",
    "Props.C99_cell_zero"
   ],
   "note": ""
  },
  {
   "property": "C100",
   "status": "partial",
   "theorems": [
    "Props.C100_lists_partial",
    "Props.C100_index_error",
    "Props.C100_blank_line_violated",
    "Props.C100_no_blank_violated"
   ],
   "note": "Blank lines other than exactly one blank enter the list as an empty volume, and a number written directly behind 'cell:' is lost (C100_blank_line_violated, C100_no_blank_violated). The lists are proved for lines in the usual layout; when IndexError is raised is proved for all inputs."
  },
  {
   "property": "C101",
   "status": "partial",
   "theorems": [
    "Props.C101_cells_mixed_violated",
    "Props.C101_last_cell_partial"
   ],
   "note": "Violated for every cell but the last: the columns of the following cell are glued to its matrix (C101_cells_mixed_violated). Proved for the last or only cell."
  },
  {
   "property": "C102",
   "status": "proved",
   "theorems": [
    "Props.C102_tables"
   ],
   "note": ""
  },
  {
   "property": "C103",
   "status": "partial",
   "theorems": [
    "Props.C103_position",
    "Props.C103_position_error",
    "Props.C103_result_partial",
    "Props.C103_result_error",
    "Props.C103_blanks_violated"
   ],
   "note": "A blank at the end of the result line or two blanks between value and error make it unreadable (C103_blanks_violated). Proved for entries separated by one blank; position and its errors are proved for all files."
  },
  {
   "property": "C104",
   "status": "partial",
   "theorems": [
    "Props.C104_cell_violated",
    "Props.C104_other_cells_violated",
    "Props.C104_cell_two_partial",
    "Props.C104_energy_partial"
   ],
   "note": "The cell is always reported as 2, and tallies of other cells cannot be read (C104_cell_violated, C104_other_cells_violated). Proved for cell 2 with a single result or with energy bins."
  },
  {
   "property": "C105",
   "status": "partial",
   "theorems": [
    "Props.C105_run_date_partial",
    "Props.C105_run_date_violated",
    "Props.C105_version"
   ],
   "note": "A file of exactly 101 lines is searched beyond its hundredth line (C105_run_date_violated). Proved for every other length; the version is proved for all inputs."
  },
  {
   "property": "C106",
   "status": "partial",
   "theorems": [
    "Props.C106_values_partial",
    "Props.C106_unknown",
    "Props.C106_file",
    "Props.C106_no_default_violated",
    "Props.C106_no_object"
   ],
   "note": "Every key of the file, every default but one, unknown keys and missing files are proved. Violated: the constructor misspells mc_output (r2s_cell.py:18), so there is no default for it and reading it raises AttributeError."
  },
  {
   "property": "C107",
   "status": "proved",
   "theorems": [
    "Props.C107_selection",
    "Props.C107_errors"
   ],
   "note": ""
  },
  {
   "property": "C108",
   "status": "proved",
   "theorems": [
    "Props.C108_rows",
    "Props.C108_errors",
    "Props.C108_none"
   ],
   "note": ""
  },
  {
   "property": "C109",
   "status": "partial",
   "theorems": [
    "Props.C109_only_inside",
    "Props.C109_success_partial",
    "Props.C109_cell_folder",
    "Props.C109_collapse_violated",
    "Props.C109_nested_raises",
    "Props.C109_missing_files",
    "Props.C109_folder",
    "Props.C109_folder_made",
    "Props.C109_setup_succeeds",
    "Props.C109_copy_errors",
    "Props.C109_copy",
    "Props.C109_in_place_violated"
   ],
   "note": "Nothing outside the folder and its parents changes (also for failing runs), the contents after success and the missing FILES file are proved; the contents need a folder not called 'collapse' or 'array', which is so for the folders made by main. Violated: in a folder called 'collapse' the collapse input is overwritten by the empty main input. C109_copy: the copy has the former contents of the source wherever that lies, unless it is one of the inputs written before; a FILES file that is in place already stops the set-up (C109_in_place_violated)."
  },
  {
   "property": "C110",
   "status": "partial",
   "theorems": [
    "Props.C110_ignored",
    "Props.C110_default_partial",
    "Props.C110_violated"
   ],
   "note": "Proved: with no request the cells are those of all neutron tallies of type 4. Violated: the tallies (and cells) of the configuration are never looked at. C110_ignored: for every configuration."
  },
  {
   "property": "C111",
   "status": "partial",
   "theorems": [
    "Props.C111_fatal",
    "Props.C111_output_missing",
    "Props.C111_input_missing",
    "Props.C111_main",
    "Props.C111_files_entry_violated",
    "Props.C111_code"
   ],
   "note": "A fatal text, a missing entry or file for the MCNP output or input, and unreadable files are proved to raise and to leave the file system as it was. Violated: a missing files_file entry raises only after the folder of the first cell was made."
  },
  {
   "property": "C112",
   "status": "proved",
   "theorems": [
    "Props.C112_value",
    "Props.C112_zero_normal",
    "Props.C112_minimal",
    "Props.C112_zero_iff",
    "Props.C112_scale"
   ],
   "note": ""
  },
  {
   "property": "C113",
   "status": "partial",
   "theorems": [
    "Props.C113_defined",
    "Props.C113_not_on_plane_violated",
    "Props.C113_origin_partial"
   ],
   "note": "Violated: the parameter of line 142 divides only the second term, so the returned point is on the plane iff d = 0 or the segment advances by 1 along the normal (C113_not_on_plane_violated). When a value is returned is proved in full (C113_defined); correct point proved for planes through the origin."
  },
  {
   "property": "C114",
   "status": "partial",
   "theorems": [
    "Props.C114_distance_partial",
    "Props.C114_intersecting",
    "Props.C114_first_component_violated",
    "Props.C114_opposite_violated",
    "Props.C114_argument_violated"
   ],
   "note": "Violated: NaN for parallel planes whose normals have first component 0, 0 for opposite normals, and the caller's second normal is overwritten. Proved for normals of the same direction with non-zero first component, and for intersecting planes."
  },
  {
   "property": "C115",
   "status": "proved",
   "theorems": [
    "Props.C115_defined",
    "Props.C115_range",
    "Props.C115_cosine",
    "Props.C115_symmetric",
    "Props.C115_scale",
    "Props.C115_right_angle",
    "Props.C115_zero_angle"
   ],
   "note": ""
  },
  {
   "property": "C116",
   "status": "partial",
   "theorems": [
    "Props.C116_circle",
    "Props.C116_defined_partial",
    "Props.C116_other_side_violated"
   ],
   "note": "Violated: a plane that misses the sphere on the side opposite to its normal gives a NaN radius instead of ValueError. The circle itself (C116_circle) is proved in full, definedness for the remaining planes."
  },
  {
   "property": "C117",
   "status": "partial",
   "theorems": [
    "Props.C117_line_partial",
    "Props.C117_parallel",
    "Props.C117_horizontal_line_violated"
   ],
   "note": "Violated: intersecting planes whose line of intersection is parallel to z = 0 raise LinAlgError. Proved for all others; parallel planes always raise."
  },
  {
   "property": "C118",
   "status": "partial",
   "theorems": [
    "Props.C118_points",
    "Props.C118_distances",
    "Props.C118_axis",
    "Props.C118_add",
    "Props.C118_origin_partial",
    "Props.C118_centre_violated",
    "Props.C118_full_turn_violated"
   ],
   "note": "Violated: o is never added back, so o moves to 0 and a full turn shifts by -o. Distances, additivity of angles and the explicit image are proved for every o; identity, full turn and fixed point for o = 0."
  },
  {
   "property": "C119",
   "status": "proved",
   "theorems": [
    "Props.C119_translate",
    "Props.C119_differences"
   ],
   "note": ""
  },
  {
   "property": "C120",
   "status": "proved",
   "theorems": [
    "Props.C120_disc",
    "Props.C120_ball",
    "Props.C120_cylinder",
    "Props.C120_cone",
    "Props.C120_flat_cone",
    "Props.C120_derivatives",
    "Props.C120_negative"
   ],
   "note": ""
  },
  {
   "property": "C121",
   "status": "proved",
   "theorems": [
    "Props.C121_spherical_shell_measure",
    "Props.C121_cyl_shell_measure",
    "Props.C121_zero",
    "Props.C121_additive",
    "Props.C121_errors"
   ],
   "note": ""
  },
  {
   "property": "C122",
   "status": "proved",
   "theorems": [
    "Props.C122_cylinder",
    "Props.C122_cone",
    "Props.C122_monotone",
    "Props.C122_flat"
   ],
   "note": ""
  },
  {
   "property": "C123",
   "status": "partial",
   "theorems": [
    "Props.C123_partial",
    "Props.C123_zero_leg_violated"
   ],
   "note": "Violated: a zero leg gives 0 instead of the other leg. Proved for non-zero legs."
  },
  {
   "property": "C124",
   "status": "proved",
   "theorems": [
    "Props.C124_plane",
    "Props.C124_plane_error",
    "Props.C124_plane_reversed",
    "Props.C124_sphere",
    "Props.C124_sphere_error",
    "Props.C124_gq",
    "Props.C124_gq_sphere",
    "Props.C124_gq_plane"
   ],
   "note": ""
  },
  {
   "property": "C125",
   "status": "proved",
   "theorems": [
    "Props.C125_solutions",
    "Props.C125_missed",
    "Props.C125_negative",
    "Props.C125_project"
   ],
   "note": ""
  },
  {
   "property": "C126",
   "status": "partial",
   "theorems": [
    "Props.C126_cylindrical_partial",
    "Props.C126_spherical_partial",
    "Props.C126_cylindrical_spherical",
    "Props.C126_spherical_cylindrical",
    "Props.C126_triangle",
    "Props.C126_x_zero_violated",
    "Props.C126_origin_nan",
    "Props.C126_negative"
   ],
   "note": "Violated: every point with x = 0 raises ZeroDivisionError. Round trips proved for x /= 0; cylindrical/spherical round trips in full (origin: NaN polar angle)."
  },
  {
   "property": "C127",
   "status": "proved",
   "theorems": [
    "Props.C127_line",
    "Props.C127_least_squares"
   ],
   "note": ""
  },
  {
   "property": "C128",
   "status": "proved",
   "theorems": [
    "Props.C128_value",
    "Props.C128_metric",
    "Props.C128_midpoint",
    "Props.C128_midpoint_unique"
   ],
   "note": ""
  },
  {
   "property": "C129",
   "status": "partial",
   "theorems": [
    "Props.C129_violated",
    "Props.C129_integers_partial",
    "Props.C129_read_violated"
   ],
   "note": "Violated for every non-empty inventory of the reader: column A is text there and int + str raises TypeError. Proved: it succeeds exactly if no mass number is text (C129_integers_partial)."
  },
  {
   "property": "C130",
   "status": "partial",
   "theorems": [
    "Props.C130_violated",
    "Props.C130_lines_partial"
   ],
   "note": "Violated: the lib argument is never used. Proved: every line is identifier and fraction without a suffix (C130_lines_partial)."
  },
  {
   "property": "C131",
   "status": "proved",
   "theorems": [
    "Props.C131_series",
    "Props.C131_rejected"
   ],
   "note": ""
  },
  {
   "property": "C132",
   "status": "partial",
   "theorems": [
    "Props.C132_old_version_violated",
    "Props.C132_old_version_partial"
   ],
   "note": "Violated: any FISPACT 07 summary with rows raises TypeError (text times float); only the empty summary is accepted."
  },
  {
   "property": "C133",
   "status": "partial",
   "theorems": [
    "Props.C133_dominant",
    "Props.C133_error_partial",
    "Props.C133_any_violated",
    "Props.C133_empty_line_violated"
   ],
   "note": "Rows and lengths are proved exactly; an empty line in the lower half raises IndexError instead of ValueError, in every table (C133_any_violated; instance C133_empty_line_violated)."
  },
  {
   "property": "C134",
   "status": "proved",
   "theorems": [
    "Props.C134_time_step",
    "Props.C134_fields"
   ],
   "note": ""
  },
  {
   "property": "C135",
   "status": "proved",
   "theorems": [
    "Props.C135_paths",
    "Props.C135_fields"
   ],
   "note": ""
  },
  {
   "property": "C136",
   "status": "partial",
   "theorems": [
    "Props.C136_bare_violated",
    "Props.C136_comment_line_partial",
    "Props.C136_bare_comment_violated"
   ],
   "note": "Violated for a comment line consisting of the letter alone (C136_bare_comment_violated). Proved for comments with a blank behind the letter. C136_bare_violated: everything behind such a line is lost."
  },
  {
   "property": "C137",
   "status": "proved",
   "theorems": [
    "Props.C137_thermal",
    "Props.C137_no_thermal"
   ],
   "note": ""
  },
  {
   "property": "C138",
   "status": "partial",
   "theorems": [
    "Props.C138_surface_order_violated",
    "Props.C138_single_partial"
   ],
   "note": "Violated: results do not depend on the order in which the set of surfaces is listed (C138_surface_order_violated). There is no case with several surfaces in which the order is guaranteed; proved if all surface lines name one surface."
  },
  {
   "property": "C139",
   "status": "partial",
   "theorems": [
    "Props.C139_user_bins_violated",
    "Props.C139_energy_partial",
    "Props.C139_energy_time_partial"
   ],
   "note": "Violated by every file with user bins: ValueError (C139_user_bins_violated). Proved without user bins: energy bins alone and energy with time bins."
  },
  {
   "property": "C140",
   "status": "proved",
   "theorems": [
    "Props.C140_general"
   ],
   "note": ""
  },
  {
   "property": "C141",
   "status": "proved",
   "theorems": [
    "Props.C141_blocks",
    "Props.C141_gap",
    "Props.C141_rows_differ",
    "Props.C141_empty"
   ],
   "note": ""
  },
  {
   "property": "C142",
   "status": "proved",
   "theorems": [
    "Props.C142_single_values"
   ],
   "note": ""
  },
  {
   "property": "C143",
   "status": "partial",
   "theorems": [
    "Props.C143_values_partial",
    "Props.C143_skipped_violated"
   ],
   "note": "A cell whose line is blank or contains 'total' is skipped silently, which shifts the later results (C143_skipped_violated). Proved for type 4 and other cell tallies when every cell has a value line."
  },
  {
   "property": "C144",
   "status": "partial",
   "theorems": [
    "Props.C144_never_reports_violated",
    "Props.C144_missing_partial"
   ],
   "note": "Only the missing log file is reported. Violated: the log is read but never looked at; every existing log gives 0."
  },
  {
   "property": "C145",
   "status": "proved",
   "theorems": [
    "Props.C145_success",
    "Props.C145_no_cells"
   ],
   "note": ""
  },
  {
   "property": "C146",
   "status": "proved",
   "theorems": [
    "Props.C146_time_slice",
    "Props.C146_success",
    "Props.C146_errors"
   ],
   "note": ""
  },
  {
   "property": "C147",
   "status": "proved",
   "theorems": [
    "Props.C147_curves",
    "Props.C147_total",
    "Props.C147_success",
    "Props.C147_empty",
    "Props.C147_errors",
    "Props.C147_no_targets",
    "Props.C147_limits",
    "Props.C147_upper"
   ],
   "note": ""
  },
  {
   "property": "C148",
   "status": "partial",
   "theorems": [
    "Props.C148_given",
    "Props.C148_single_partial",
    "Props.C148_two_violated",
    "Props.C148_window",
    "Props.C148_far_violated"
   ],
   "note": "Proved for one target and increasing times, and for given limits. Violated: with several targets the window lies around the median of the peaks (C148_window), and a peak is hidden exactly if it is more than window bins away from it (C148_far_violated; C148_two_violated: all peaks hidden)."
  },
  {
   "property": "C149",
   "status": "partial",
   "theorems": [
    "Props.C149_curves_partial",
    "Props.C149_single_partial",
    "Props.C149_total_violated",
    "Props.C149_targets_violated",
    "Props.C149_cut_violated"
   ],
   "note": "Proved for all targets without the total, and for one target with the total. Violated: with the total the limit is 1.05 times the total in the bin of the median peak, and everything larger is cut off (C149_cut_violated): the total itself by any factor (C149_total_violated), and with several targets a target (C149_targets_violated)."
  },
  {
   "property": "C150",
   "status": "partial",
   "theorems": [
    "Props.C150_cells",
    "Props.C150_shape_violated",
    "Props.C150_late_violated"
   ],
   "note": "The cells are proved for one time fewer than columns (C150_cells). Violated: with one time per column matplotlib refuses the data (C150_shape_violated), and the labels of MCNP are upper boundaries, so in the place of every bin the result of the bin before is shown (C150_late_violated). That the last energy row and the last two columns are never shown follows from the shape."
  },
  {
   "property": "C151",
   "status": "partial",
   "theorems": [
    "Props.C151_keys_violated",
    "Props.C151_density_partial",
    "Props.C151_success_partial",
    "Props.C151_current_violated",
    "Props.C151_heating_violated",
    "Props.C151_angles_partial",
    "Props.C151_single_number",
    "Props.C151_mismatch",
    "Props.C151_surfaces_angles",
    "Props.C151_no_bins",
    "Props.C151_kinds"
   ],
   "note": "Proved for all types but 1 (results with more than one number), for type 1 with angle bins on one surface, and success for tables of type 2 and 4; a wrong number of values raises (C151_mismatch). Violated: currents without angle bins and tables of heating tallies always raise TypeError; of a table with angle bins the keys are drawn. Results that are matrices are C228."
  },
  {
   "property": "C152",
   "status": "partial",
   "theorems": [
    "Props.C152_length_violated",
    "Props.C152_bars_partial",
    "Props.C152_drawn_partial",
    "Props.C152_negative_violated",
    "Props.C152_bars_violated",
    "Props.C152_tables_violated",
    "Props.C152_no_objects_violated",
    "Props.C152_angles_violated"
   ],
   "note": "Position and height are proved, for plain spectra of more than one value, and that they are drawn if no bar has a negative length. Violated: the length is that of the bin before; negative values with an error, tallies that are tables and currents in several directions (C152_angles_violated) raise."
  },
  {
   "property": "C153",
   "status": "partial",
   "theorems": [
    "Props.C153_given",
    "Props.C153_auto_partial",
    "Props.C153_hidden_violated",
    "Props.C153_other_violated",
    "Props.C153_all_violated"
   ],
   "note": "The limit is characterised. Violated: it is the upper edge of the first bin with a result, which is therefore always cut off (C153_all_violated), and only the last curve is looked at (C153_other_violated)."
  },
  {
   "property": "C154",
   "status": "partial",
   "theorems": [
    "Props.C154_first_violated",
    "Props.C154_over_violated",
    "Props.C154_ratio_partial",
    "Props.C154_plain_violated",
    "Props.C154_table_violated",
    "Props.C154_refused"
   ],
   "note": "Proved for results that are lists of spectra. Violated: plain spectra raise ValueError, tables KeyError; if one of the two is plain, its first number is used for all bins."
  },
  {
   "property": "C155",
   "status": "partial",
   "theorems": [
    "Props.C155_runs_partial",
    "Props.C155_refused_partial",
    "Props.C155_one_error_violated",
    "Props.C155_raw"
   ],
   "note": "Proved for lists of equal length and errors that are not negative, and the refusal of any other number of errors but one. Violated: one error for many values is not refused, matplotlib repeats it."
  },
  {
   "property": "C156",
   "status": "proved",
   "theorems": [
    "Props.C156_constants"
   ],
   "note": ""
  },
  {
   "property": "C157",
   "status": "partial",
   "theorems": [
    "Props.C157_exact",
    "Props.C157_measured_partial",
    "Props.C157_activity_violated",
    "Props.C157_ms_violated",
    "Props.C157_zero"
   ],
   "note": "Exact and measured conversions are proved apart from activities and shake_to_ms. Violated: both activity conversions are off by more than 10^20; shake_to_ms gives microseconds."
  },
  {
   "property": "C158",
   "status": "partial",
   "theorems": [
    "Props.C158_points_partial",
    "Props.C158_label",
    "Props.C158_zero_violated",
    "Props.C158_later_violated",
    "Props.C158_lines_violated",
    "Props.C158_arguments",
    "Props.C158_cooling_missing",
    "Props.C158_hidden_violated"
   ],
   "note": "Proved: the figure is the pairs before the first zero of the column, scaled and labelled as stated (C158_points_partial, C158_label, C158_arguments). Violated: a column that starts with zero raises ValueError, values after a zero are never drawn, and any vertical or horizontal line raises AttributeError because plt.vline and plt.hline do not exist."
  },
  {
   "property": "C159",
   "status": "proved",
   "theorems": [
    "Props.C159_gamma"
   ],
   "note": ""
  },
  {
   "property": "C160",
   "status": "partial",
   "theorems": [
    "Props.C160_wedges_partial",
    "Props.C160_share_violated",
    "Props.C160_param",
    "Props.C160_shares_violated"
   ],
   "note": "Proved: wedges exactly for the nuclides above the threshold, each the fraction of the sum of those shown. Violated: the fraction is not the percentage of the table, because nuclides below the threshold are left out of the circle. C160_shares_violated: every wedge is then too large."
  },
  {
   "property": "C161",
   "status": "proved",
   "theorems": [
    "Props.C161_curves",
    "Props.C161_errors"
   ],
   "note": ""
  },
  {
   "property": "C162",
   "status": "proved",
   "theorems": [
    "Props.C162_table101",
    "Props.C162_errors",
    "Props.C162_rows"
   ],
   "note": ""
  },
  {
   "property": "C163",
   "status": "proved",
   "theorems": [
    "Props.C163_table60"
   ],
   "note": ""
  },
  {
   "property": "C164",
   "status": "proved",
   "theorems": [
    "Props.C164_angles"
   ],
   "note": ""
  },
  {
   "property": "C165",
   "status": "partial",
   "theorems": [
    "Props.C165_areas_partial",
    "Props.C165_more_violated",
    "Props.C165_absent"
   ],
   "note": "The lists are read when they fit on one pair of lines (C165_areas_partial); C165_more_violated: any further pair of surface and area lines is never read, so tallies with more surfaces than fit on one line lose the rest."
  },
  {
   "property": "C166",
   "status": "proved",
   "theorems": [
    "Props.C166_tests"
   ],
   "note": ""
  },
  {
   "property": "C167",
   "status": "proved",
   "theorems": [
    "Props.C167_file",
    "Props.C167_missing"
   ],
   "note": ""
  },
  {
   "property": "C168",
   "status": "proved",
   "theorems": [
    "Props.C168_file",
    "Props.C168_errors"
   ],
   "note": ""
  },
  {
   "property": "C169",
   "status": "partial",
   "theorems": [
    "Props.C169_further_mx_violated",
    "Props.C169_cards_partial",
    "Props.C169_second_mx_violated",
    "Props.C169_card_names",
    "Props.C169_card_absent"
   ],
   "note": "First mt and first mx card of the material (C169_cards_partial); C169_second_mx_violated: a further mx card of the same material for another particle is not read."
  },
  {
   "property": "C170",
   "status": "partial",
   "theorems": [
    "Props.C170_type_partial",
    "Props.C170_kcode_violated",
    "Props.C170_text",
    "Props.C170_unknown"
   ],
   "note": "Right unless both cards are present (C170_type_partial); C170_kcode_violated: every input with an sdef card, kcode or not, is called a fixed source calculation."
  },
  {
   "property": "C171",
   "status": "partial",
   "theorems": [
    "Props.C171_atoms_violated",
    "Props.C171_violated",
    "Props.C171_weight_partial"
   ],
   "note": "C171_violated: the attribute is set to True in the constructor and never changed, also for atom fractions. C171_weight_partial: right for materials given by weight. C171_atoms_violated: for every material given by atoms."
  },
  {
   "property": "C172",
   "status": "partial",
   "theorems": [
    "Props.C172_count_violated",
    "Props.C172_violated",
    "Props.C172_accepts_partial"
   ],
   "note": "C172_violated: the five checks are stubs that always return True; surfaces with no entries are read and pass. C172_accepts_partial: no valid surface is rejected. C172_count_violated: for every surface with a wrong number of entries."
  },
  {
   "property": "C173",
   "status": "proved",
   "theorems": [
    "Props.C173_tally",
    "Props.C173_surface"
   ],
   "note": ""
  },
  {
   "property": "C174",
   "status": "partial",
   "theorems": [
    "Props.C174_violated",
    "Props.C174_lines_partial"
   ],
   "note": "C174_violated: the line break between the number of directory entries and the number of thermal tables is missing. C174_lines_partial: the first three lines."
  },
  {
   "property": "C175",
   "status": "partial",
   "theorems": [
    "Props.C175_boundary_violated",
    "Props.C175_request_violated",
    "Props.C175_cells_partial",
    "Props.C175_mismatch",
    "Props.C175_plane",
    "Props.C175_limits_violated",
    "Props.C175_nonuniform_violated",
    "Props.C175_single_violated",
    "Props.C175_title_violated",
    "Props.C175_create"
   ],
   "note": "Cells, values and, on axes with at least two equal voxels, the place of the cells (C175_cells_partial), errors of the call (C175_mismatch, C175_plane, C175_create). Violated: the axis limits cut off half of the outer voxels (C175_limits_violated), voxels of different widths are drawn between the mid points of their centres (C175_nonuniform_violated), a single voxel has no width (C175_single_violated), and the title names the requested position (C175_title_violated)."
  },
  {
   "property": "C176",
   "status": "proved",
   "theorems": [
    "Props.C176_bars",
    "Props.C176_range",
    "Props.C176_missing"
   ],
   "note": ""
  },
  {
   "property": "C177",
   "status": "partial",
   "theorems": [
    "Props.C177_counts_partial",
    "Props.C177_violated"
   ],
   "note": "Right for meshes whose volume can be computed (C177_counts_partial); C177_violated: printing a mesh from a file with non-uniform first axis raises TypeError."
  },
  {
   "property": "C178",
   "status": "proved",
   "theorems": [
    "Props.C178_read"
   ],
   "note": ""
  },
  {
   "property": "C179",
   "status": "partial",
   "theorems": [
    "Props.C179_any_violated",
    "Props.C179_violated",
    "Props.C179_nothing_partial"
   ],
   "note": "Violated: all three functions are stubs that return None for every input (C179_violated); that is right only where there is nothing to find (C179_nothing_partial, for comments). C179_any_violated: for every input."
  },
  {
   "property": "C180",
   "status": "partial",
   "theorems": [
    "Props.C180_again_partial",
    "Props.C180_again_violated",
    "Props.C180_half_partial",
    "Props.C180_numpy_violated",
    "Props.C180_zero_violated"
   ],
   "note": "Right for numpy below 1.24 and a positive maximum (C180_half_partial). Violated: np.float no longer exists, so the call raises AttributeError (C180_numpy_violated); a mesh without scores becomes NaN (C180_zero_violated). Normalising again changes nothing if the largest value is positive (C180_again_partial), but turns negative values round (C180_again_violated)."
  },
  {
   "property": "C181",
   "status": "partial",
   "theorems": [
    "Props.C181_violated"
   ],
   "note": "Violated for every input: ut.setup_logging does not exist, so the call raises AttributeError before anything is read or written (C181_violated)."
  },
  {
   "property": "C182",
   "status": "proved",
   "theorems": [
    "Props.C182_curves",
    "Props.C182_error",
    "Props.C182_file"
   ],
   "note": ""
  },
  {
   "property": "C183",
   "status": "proved",
   "theorems": [
    "Props.C183_made",
    "Props.C183_succeeds",
    "Props.C183_again",
    "Props.C183_file"
   ],
   "note": ""
  },
  {
   "property": "C184",
   "status": "proved",
   "theorems": [
    "Props.C184_bound",
    "Props.C184_greatest",
    "Props.C184_error"
   ],
   "note": ""
  },
  {
   "property": "C185",
   "status": "partial",
   "theorems": [
    "Props.C185_steps_partial",
    "Props.C185_violated"
   ],
   "note": "Right if the summary has a cooling row (C185_steps_partial); without one all steps are returned (C185_violated)."
  },
  {
   "property": "C186",
   "status": "proved",
   "theorems": [
    "Props.C186_text"
   ],
   "note": ""
  },
  {
   "property": "C187",
   "status": "partial",
   "theorems": [
    "Props.C187_rows",
    "Props.C187_convert_partial",
    "Props.C187_empty_violated",
    "Props.C187_short_violated"
   ],
   "note": "Right if some row is not empty and all rows have the same length (C187_convert_partial; C187_rows for all data with a row that is not empty). Violated: no rows at all give a table of missing values (C187_empty_violated), and rows that are too short are filled with missing values if one row has the right length (C187_short_violated)."
  },
  {
   "property": "C188",
   "status": "partial",
   "theorems": [
    "Props.C188_positive_partial",
    "Props.C188_violated"
   ],
   "note": "Right for positive numbers (C188_positive_partial); zero and negative numbers are accepted as well (C188_violated)."
  },
  {
   "property": "C189",
   "status": "partial",
   "theorems": [
    "Props.C189_inside_violated",
    "Props.C189_negated_partial",
    "Props.C189_violated",
    "Props.C189_sense_violated"
   ],
   "note": "Right if the last entry is negated by the caller (C189_negated_partial); with the entry itself the value is off by twice the entry (C189_violated), and points inside a sphere get the sense of the outside (C189_sense_violated)."
  },
  {
   "property": "C190",
   "status": "partial",
   "theorems": [
    "Props.C190_lines_partial",
    "Props.C190_violated"
   ],
   "note": "Right for three blanks after the energy and one after the result (C190_lines_partial); single blanks raise IndexError (C190_violated)."
  },
  {
   "property": "C191",
   "status": "proved",
   "theorems": [
    "Props.C191_numbers"
   ],
   "note": ""
  },
  {
   "property": "C192",
   "status": "proved",
   "theorems": [
    "Props.C192_file"
   ],
   "note": ""
  },
  {
   "property": "C193",
   "status": "partial",
   "theorems": [
    "Props.C193_violated",
    "Props.C193_error_partial",
    "Props.C193_summary_violated",
    "Props.C193_text_violated"
   ],
   "note": "Violated: both files are empty, nothing is run or removed (C193_violated), read_summary returns 1 (C193_summary_violated). Only the error for an unwritable path holds (C193_error_partial)."
  },
  {
   "property": "C194",
   "status": "proved",
   "theorems": [
    "Props.C194_cell",
    "Props.C194_material"
   ],
   "note": ""
  },
  {
   "property": "C195",
   "status": "proved",
   "theorems": [
    "Props.C195_section",
    "Props.C195_last_line",
    "Props.C195_fields",
    "Props.C195_other_types",
    "Props.C195_reader",
    "Props.C195_unfinished"
   ],
   "note": ""
  },
  {
   "property": "C196",
   "status": "proved",
   "theorems": [
    "Props.C196_surfaces",
    "Props.C196_single"
   ],
   "note": ""
  },
  {
   "property": "C197",
   "status": "proved",
   "theorems": [
    "Props.C197_cells"
   ],
   "note": ""
  },
  {
   "property": "C198",
   "status": "proved",
   "theorems": [
    "Props.C198_surfaces",
    "Props.C198_single"
   ],
   "note": ""
  },
  {
   "property": "C199",
   "status": "proved",
   "theorems": [
    "Props.C199_relative",
    "Props.C199_absolute",
    "Props.C199_rows",
    "Props.C199_refused",
    "Props.C199_not_readable",
    "Props.C199_text"
   ],
   "note": ""
  },
  {
   "property": "C200",
   "status": "partial",
   "theorems": [
    "Props.C200_read",
    "Props.C200_decided",
    "Props.C200_order",
    "Props.C200_unlisted",
    "Props.C200_names_partial",
    "Props.C200_names_violated",
    "Props.C200_u230_violated",
    "Props.C200_levels"
   ],
   "note": "Violated: U230+, Th232sec, U235sec and U238sec are not names of nuclides as FISPACT prints them (C200_names_violated), so U230 is judged by the limit for all others (C200_u230_violated). All other entries are (C200_names_partial), and the remaining parts hold (C200_read, C200_decided, C200_order, C200_unlisted)."
  },
  {
   "property": "C201",
   "status": "partial",
   "theorems": [
    "Props.C201_pairs_violated",
    "Props.C201_leading_partial"
   ],
   "note": "Violated for every section of pairs in which no ratio has the same text as an identifier: no nuclide is found under its identifier, the second word of a line becomes the key (C201_pairs_violated). Right for lines of a leading word, an identifier and a ratio (C201_leading_partial)."
  },
  {
   "property": "C202",
   "status": "partial",
   "theorems": [
    "Props.C202_continued_violated",
    "Props.C202_single_partial"
   ],
   "note": "Violated by every continued entry: the + is kept as a field and the continuation becomes an entry of its own (C202_continued_violated). Right for entries on one line (C202_single_partial)."
  },
  {
   "property": "C203",
   "status": "partial",
   "theorems": [
    "Props.C203_layer_violated",
    "Props.C203_exact_partial",
    "Props.C203_seven_fifths"
   ],
   "note": "Violated by every mid point that needs more than 24 binary digits, such as 1.4: its whole layer of the array stays 0 (C203_layer_violated, C203_seven_fifths). Rows whose coordinates are stored exactly are found at their place (C203_exact_partial)."
  },
  {
   "property": "C204",
   "status": "partial",
   "theorems": [
    "Props.C204_time_violated",
    "Props.C204_energies_violated",
    "Props.C204_times_partial"
   ],
   "note": "Violated: the result consists of the errors, the error of the values without the first one of every block (C204_time_violated), and the first values appear as energies (C204_energies_violated). The times are right (C204_times_partial)."
  },
  {
   "property": "C205",
   "status": "partial",
   "theorems": [
    "Props.C205_rows_violated",
    "Props.C205_rows_partial"
   ],
   "note": "Violated by every file with more than three lines between the last cell and the line of the minimum source weight, as when table 70 is printed: these lines become rows (C205_rows_violated). Right with exactly three lines (C205_rows_partial)."
  },
  {
   "property": "C206",
   "status": "partial",
   "theorems": [
    "Props.C206_cell_partial",
    "Props.C206_lone_bracket_violated",
    "Props.C206_adjoining_brackets_violated",
    "Props.C206_union_sign_violated"
   ],
   "note": "Right for words that are numbers joined by colons, with brackets and signs outside, or do not start with a digit (C206_cell_partial, with material, density, comments and importances). Violated: a bracket or sign that stands alone (C206_lone_bracket_violated) or brackets inside a word, as in (1:2)(3:4) (C206_adjoining_brackets_violated), make the block unreadable; in 1:-2 the second surface is stored with its sign (C206_union_sign_violated)."
  },
  {
   "property": "C207",
   "status": "partial",
   "theorems": [
    "Props.C207_comment_number_violated",
    "Props.C207_comment_word_violated",
    "Props.C207_comment_imp_violated",
    "Props.C207_partial",
    "Props.C207_comment_lost_violated"
   ],
   "note": "Right if the comment is one word, or its other words start with no digit, dollar sign or importance (C207_partial). Violated: numbers in the comment become surfaces (C207_comment_number_violated), words such as 2mm or simple make the block unreadable (C207_comment_word_violated, C207_comment_imp_violated), and a comment separated by a blank is stored as the empty text (C207_comment_lost_violated)."
  },
  {
   "property": "C208",
   "status": "partial",
   "theorems": [
    "Props.C208_blank_violated",
    "Props.C208_equals_blank_violated",
    "Props.C208_shared_violated",
    "Props.C208_partial"
   ],
   "note": "Right for imp:n=1 (C208_partial). Violated: a blank instead of (C208_blank_violated) or behind the equals sign (C208_equals_blank_violated) makes the block unreadable; imp:n,p=1 is stored for n only (C208_shared_violated)."
  },
  {
   "property": "C209",
   "status": "partial",
   "theorems": [
    "Props.C209_parameter_values_violated",
    "Props.C209_partial"
   ],
   "note": "Right if no word behind the parameter starts with a digit (C209_partial). Violated: further values of the parameter are stored as surfaces (C209_parameter_values_violated)."
  },
  {
   "property": "C210",
   "status": "partial",
   "theorems": [
    "Props.C210_like_violated",
    "Props.C210_violated"
   ],
   "note": "Violated by every such card: the block cannot be read (C210_like_violated, C210_violated)."
  },
  {
   "property": "C211",
   "status": "partial",
   "theorems": [
    "Props.C211_data_card_violated",
    "Props.C211_surface_partial",
    "Props.C211_indented_lost_violated",
    "Props.C211_partial"
   ],
   "note": "Right in column 1 (C211_partial) and for surfaces (C211_surface_partial). Violated for cells (C211_indented_lost_violated), materials, tallies and the mode card (C211_data_card_violated): the card is passed over."
  },
  {
   "property": "C212",
   "status": "partial",
   "theorems": [
    "Props.C212_material_violated",
    "Props.C212_ampersand_digit_violated",
    "Props.C212_ampersand_dropped_violated",
    "Props.C212_partial"
   ],
   "note": "The sign does no harm on a cell card (C212_partial). Violated: the next line is taken for another cell (C212_ampersand_digit_violated) or dropped (C212_ampersand_dropped_violated), and a material card cannot be read (C212_material_violated)."
  },
  {
   "property": "C213",
   "status": "partial",
   "theorems": [
    "Props.C213_default_bins_violated",
    "Props.C213_partial"
   ],
   "note": "Right without such cards (C213_partial). Violated: cards for all tallies are not looked for (C213_default_bins_violated)."
  },
  {
   "property": "C214",
   "status": "partial",
   "theorems": [
    "Props.C214_reflecting_violated",
    "Props.C214_second_entry_violated",
    "Props.C214_periodic_violated",
    "Props.C214_points_violated",
    "Props.C214_partial"
   ],
   "note": "Right for the 37 known types, with a transform and with a white boundary (C214_partial). Violated: reflecting (C214_reflecting_violated) and periodic boundaries (C214_periodic_violated), surfaces given by points (C214_points_violated) and any other second entry (C214_second_entry_violated) make the block unreadable."
  },
  {
   "property": "C215",
   "status": "partial",
   "theorems": [
    "Props.C215_data_card_violated",
    "Props.C215_partial"
   ],
   "note": "Right for importances on cell cards (C215_partial). Violated: the data block is not used (C215_data_card_violated)."
  },
  {
   "property": "C216",
   "status": "partial",
   "theorems": [
    "Props.C216_particles_violated",
    "Props.C216_partial"
   ],
   "note": "What is accepted is a particle (C216_partial). Violated: 28 of the 37 particles are rejected, among them deuterons, tritons and alphas (C216_particles_violated)."
  },
  {
   "property": "C217",
   "status": "partial",
   "theorems": [
    "Props.C217_starred_violated",
    "Props.C217_ring_violated",
    "Props.C217_file_violated",
    "Props.C217_partial"
   ],
   "note": "Right for plain cards (C217_partial). Violated: cards with a sign in front are missing (C217_starred_violated), and a letter behind the number makes the input unreadable (C217_ring_violated, C217_file_violated)."
  },
  {
   "property": "C218",
   "status": "proved",
   "theorems": [
    "Props.C218_physical",
    "Props.C218_inverse",
    "Props.C218_band",
    "Props.C218_labels"
   ],
   "note": ""
  },
  {
   "property": "C219",
   "status": "partial",
   "theorems": [
    "Props.C219_objects_partial",
    "Props.C219_given_partial",
    "Props.C219_angles_partial",
    "Props.C219_discarded_violated",
    "Props.C219_two_violated",
    "Props.C219_detector_violated",
    "Props.C219_surfaces_violated",
    "Props.C219_same_violated",
    "Props.C219_axis"
   ],
   "note": "Proved: fluxes of cells and surfaces are named by their objects (C219_objects_partial), names of the caller are used in order if no tally has angle bins (C219_given_partial), one current by angle is named by the lower boundaries of its bins (C219_angles_partial), the label of the axis (C219_axis). Violated: angle bins discard the names of the caller, a second tally with angle bins renames the curves of the first, spectra of other types and currents of several surfaces are not named, and two tallies of the same object get the same name. Error bars are left out."
  },
  {
   "property": "C220",
   "status": "partial",
   "theorems": [
    "Props.C220_blank_violated",
    "Props.C220_rows_partial",
    "Props.C220_slice",
    "Props.C220_point",
    "Props.C220_line",
    "Props.C220_zeros",
    "Props.C220_array"
   ],
   "note": "Violated: every blank line is a row of NaN (C220_blank_violated). Proved: the number of rows (C220_rows_partial), and that the empty rows change no slice, point, line with a common coordinate, count of zeros or array of an energy or time mesh (C220_slice, C220_point, C220_line, C220_zeros, C220_array)."
  },
  {
   "property": "C221",
   "status": "partial",
   "theorems": [
    "Props.C221_cooling",
    "Props.C221_cooling_partial",
    "Props.C221_no_cooling_violated",
    "Props.C221_points_partial",
    "Props.C221_label_partial",
    "Props.C221_label_violated",
    "Props.C221_names_violated"
   ],
   "note": "The points are proved for all six columns, also for the cooling phase alone (C221_cooling, C221_cooling_partial), and the labels for two. Violated: the labels with units for heat, doses and tritium belong to names that the reader does not give its columns, so asking for them raises ValueError (C221_names_violated) and the actual columns are labelled with their bare names (C221_label_violated); asking for the cooling phase of a summary without one raises ValueError (C221_no_cooling_violated)."
  },
  {
   "property": "C222",
   "status": "partial",
   "theorems": [
    "Props.C222_total_partial",
    "Props.C222_total_violated",
    "Props.C222_label_violated"
   ],
   "note": "Proved without the total and for the activity and the dose rate with it. Violated: for every other column of the inventory the total raises KeyError, and the axis says bq/kg whatever is drawn."
  },
  {
   "property": "C223",
   "status": "partial",
   "theorems": [
    "Props.C223_refused",
    "Props.C223_view",
    "Props.C223_scale_partial",
    "Props.C223_smallest_violated",
    "Props.C223_reversed_violated",
    "Props.C223_default",
    "Props.C223_default_shown"
   ],
   "note": "Checks, title and axes are proved; the scale for values that are not all within 1e-8 of each other. Violated: 1e-8 is added to the lower end, so the smallest value is never on the scale, and for values closer than that the ends are reversed."
  },
  {
   "property": "C224",
   "status": "partial",
   "theorems": [
    "Props.C224_ground_partial",
    "Props.C224_isomer_violated",
    "Props.C224_zero_violated"
   ],
   "note": "Ground states stand in their cells. Violated: isomeric states such as Al26m have a text for a mass number that is no number, so they stand at A = 0 or, in a view above 0, not at all. Views beyond the array are C50."
  },
  {
   "property": "C225",
   "status": "partial",
   "theorems": [
    "Props.C225_pies_partial",
    "Props.C225_unknown",
    "Props.C225_column_violated"
   ],
   "note": "The five quantities are drawn when the shown values add up to more than 0. Violated: the columns of percentages and names pass the check and raise KeyError."
  },
  {
   "property": "C226",
   "status": "partial",
   "theorems": [
    "Props.C226_drawn_partial",
    "Props.C226_inactive_violated"
   ],
   "note": "Steps with activity are drawn. Violated: a step without activity has an empty spectrum and raises ValueError."
  },
  {
   "property": "C227",
   "status": "partial",
   "theorems": [
    "Props.C227_two_letters_partial",
    "Props.C227_blank_violated"
   ],
   "note": "Symbols of two letters are right. Violated: a symbol of one letter keeps a blank and is no key of Z_dict."
  },
  {
   "property": "C228",
   "status": "partial",
   "theorems": [
    "Props.C228_rows_violated",
    "Props.C228_shape_violated",
    "Props.C228_width_violated",
    "Props.C228_equal_partial",
    "Props.C228_single_violated",
    "Props.C228_limit_partial"
   ],
   "note": "Holds for as many time bins as energy bins, all of the same width. Violated: the widths are laid along the time bins, so other widths give wrong values, other numbers of time bins raise ValueError, and a single time bin is drawn as one curve per energy. Without error bars; a zero width divides by zero."
  },
  {
   "property": "C229",
   "status": "partial",
   "theorems": [
    "Props.C229_name",
    "Props.C229_level",
    "Props.C229_first_partial",
    "Props.C229_mass_violated"
   ],
   "note": "The names and levels agree with the limits file, and for one kilogram of material the first out of scope step is returned. Violated: the mass in the file is ignored, so steps of heavier materials are passed over and steps of lighter ones returned wrongly. Steps without active nuclides as in C48."
  },
  {
   "property": "C230",
   "status": "proved",
   "theorems": [
    "Props.C230_coordinates"
   ],
   "note": ""
  },
  {
   "property": "C231",
   "status": "partial",
   "theorems": [
    "Props.C231_particle_partial",
    "Props.C231_cell_violated",
    "Props.C231_single_violated"
   ],
   "note": "In files with several kinds of particles the particle is right. Violated: the cell of no event is read (source type, nucleus, surface, ... are stored), and in files with one kind of particle the particle is a cell, reaction, angle or branch."
  },
  {
   "property": "C232",
   "status": "partial",
   "theorems": [
    "Props.C232_shifted_partial",
    "Props.C232_violated"
   ],
   "note": "The types read are those of the file shifted by one event, with the mark of the end behind the last (C232_shifted_partial). Violated: every event has the type of the next one."
  },
  {
   "property": "C233",
   "status": "partial",
   "theorems": [
    "Props.C233_all_partial",
    "Props.C233_positions_violated",
    "Props.C233_entries_violated"
   ],
   "note": "Lines of histories with two or three entries and all variables are read. Violated: positions only raises ValueError, four to eight entries raise AttributeError."
  },
  {
   "property": "C234",
   "status": "proved",
   "theorems": [
    "Props.C234_header"
   ],
   "note": ""
  },
  {
   "property": "C235",
   "status": "partial",
   "theorems": [
    "Props.C235_step_violated",
    "Props.C235_active_violated",
    "Props.C235_file_violated",
    "Props.C235_summary_violated",
    "Props.C235_texts_partial"
   ],
   "note": "Violated: such a number in the totals or in the inventory of any time step after the first (C235_step_violated, C235_file_violated), in the dominant nuclides, the composition or the spectrum of a step with activity (C235_active_violated) or in the summary (C235_summary_violated) and nothing of the file is read. Only the number of fissions and the gas contents do no harm; their text is kept instead of the value (C235_texts_partial). Assumes that float rejects numbers without E, as Python's does."
  },
  {
   "property": "C236",
   "status": "partial",
   "theorems": [
    "Props.C236_default_partial",
    "Props.C236_cooling_violated",
    "Props.C236_flux_violated",
    "Props.C236_output_violated"
   ],
   "note": "Violated: is_cooling stays False and flux_amp 0 for every step (C236_cooling_violated, C236_flux_violated), num_cool_step 0 and time_days empty for every output (C236_output_violated). Right only for steps that are not cooling and have no flux (C236_default_partial)."
  },
  {
   "property": "C237",
   "status": "partial",
   "theorems": [
    "Props.C237_columns_partial",
    "Props.C237_values_violated"
   ],
   "note": "Violated: the columns exist with one entry for each row (C237_columns_partial), but every entry is None whatever is printed (C237_values_violated)."
  },
  {
   "property": "C238",
   "status": "partial",
   "theorems": [
    "Props.C238_empty_violated",
    "Props.C238_lost_violated",
    "Props.C238_columns_partial"
   ],
   "note": "Rows with more than six columns, such as volumes, are refused with ValueError (C238_columns_partial). Violated: a file without headings of Cartesian columns - cylindrical meshes, matrices - is read as one mesh without values (C238_empty_violated), and if two or more meshes have no such heading, meshes are lost (C238_lost_violated)."
  },
  {
   "property": "C239",
   "status": "proved",
   "theorems": [
    "Props.C239_complete",
    "Props.C239_outside",
    "Props.C239_succeeds",
    "Props.C239_again"
   ],
   "note": "Complete, outside, succeeds and again: for every tally and configuration, with the folders of the cells free where success is claimed. The activation code itself and the plots are not run by this function."
  },
  {
   "property": "C240",
   "status": "partial",
   "theorems": [
    "Props.C240_shape",
    "Props.C240_time_slice",
    "Props.C240_energy_slice_partial",
    "Props.C240_heat_map_partial",
    "Props.C240_no_total_violated",
    "Props.C240_read_partial"
   ],
   "note": "Energies, times and values are those printed (C240_shape) and time_slice works with or without the total (C240_time_slice). energy_slice and plot_ET_heatmap work with the column of the total only (C240_energy_slice_partial, C240_heat_map_partial, C240_read_partial for point detectors); violated without it, ValueError and TypeError (C240_no_total_violated). The cells of the heat map are those of C150."
  },
  {
   "property": "C241",
   "status": "proved",
   "theorems": [
    "Props.C241_get_lines",
    "Props.C241_printlib",
    "Props.C241_xsdir",
    "Props.C241_ptrac",
    "Props.C241_mcnp_output",
    "Props.C241_mcnp_input",
    "Props.C241_run_log",
    "Props.C241_fispact_output",
    "Props.C241_fispact_input",
    "Props.C241_meshtally",
    "Props.C241_config"
   ],
   "note": "For every path and file system, reader by reader. Names that lead to the same file (links, ./) are different paths in the model, and the decoding of bytes is not modelled."
  },
  {
   "property": "C242",
   "status": "proved",
   "theorems": [
    "Props.C242_write_lines",
    "Props.C242_text_replace",
    "Props.C242_csv_out",
    "Props.C242_html_f4_tab_out",
    "Props.C242_html_output",
    "Props.C242_output_points",
    "Props.C242_lost_points",
    "Props.C242_reduce_ofile",
    "Props.C242_fluxes",
    "Props.C242_fluxes_program",
    "Props.C242_tally_lines",
    "Props.C242_activation",
    "Props.C242_copy"
   ],
   "note": "For every path and file system, writer by writer. A failure in the middle of the writing (a full disk, a character the encoding lacks) is not modelled, and names that lead to the same file (links, ./) are different paths."
  },
  {
   "property": "C243",
   "status": "partial",
   "theorems": [
    "Props.C243_others_partial",
    "Props.C243_changed_violated",
    "Props.C243_failed_violated",
    "Props.C243_again",
    "Props.C243_result"
   ],
   "note": "The result is that of the row by row description (C243_result, which C45 is about), and a second call gives the same and changes nothing more (C243_again). Violated: the columns Z, ZAID and atoms_norm are added to the caller's table (C243_changed_violated), also when the call fails (C243_failed_violated); every other column is as it was (C243_others_partial)."
  },
  {
   "property": "C244",
   "status": "partial",
   "theorems": [
    "Props.C244_mean_partial",
    "Props.C244_none_violated"
   ],
   "note": "Holds for every file with at least one history (C244_mean_partial). Violated by files without histories: the reader returns a list holding None, and the mean raises AttributeError (C244_none_violated)."
  },
  {
   "property": "C245",
   "status": "partial",
   "theorems": [
    "Props.C245_point_partial",
    "Props.C245_line_partial",
    "Props.C245_slice_partial",
    "Props.C245_apart_partial",
    "Props.C245_two_voxels_violated"
   ],
   "note": "Violated when two mid points are rounded to the same number: picking a point of one voxel returns the values of both (C245_two_voxels_violated, with 16777217 and 16777218 as an instance). Holds whenever the rounding tells the coordinates apart (C245_point_partial, C245_line_partial, C245_slice_partial), which rounding to nearest does for numbers further apart than 1 / 2^24 of their sum (C245_apart_partial). That numpy compares a float32 column with a Python float in float32 is part of the model."
  },
  {
   "property": "C246",
   "status": "partial",
   "theorems": [
    "Props.C246_point_partial",
    "Props.C246_line_partial",
    "Props.C246_slice_partial",
    "Props.C246_array_partial",
    "Props.C246_order_violated"
   ],
   "note": "Holds for six-column meshes whose rows are in the same order; the array also for a square root with sqrt(0) = 0. add_mesh adds by row label and never compares the coordinates, so meshes of equal bounds with rows in another order get sums in the wrong voxels (witness). Five-column meshes cannot be added (C59)."
  },
  {
   "property": "C247",
   "status": "partial",
   "theorems": [
    "Props.C247_data_partial",
    "Props.C247_surfaces_partial",
    "Props.C247_cells_partial",
    "Props.C247_input_partial",
    "Props.C247_importance_violated"
   ],
   "note": "Right for everything but importances: data block (C247_data_partial), surfaces (C247_surfaces_partial), cells up to importances (C247_cells_partial, for a number parser that ignores case as float does) and the whole input (C247_input_partial). Violated: IMP:N=1 is stored for a particle N and not for n (C247_importance_violated)."
  },
  {
   "property": "C248",
   "status": "partial",
   "theorems": [
    "Props.C248_card_partial",
    "Props.C248_material_partial",
    "Props.C248_tally_partial",
    "Props.C248_numbers_partial",
    "Props.C248_surfaces_partial",
    "Props.C248_tab_violated",
    "Props.C248_cells_partial",
    "Props.C248_input_partial"
   ],
   "note": "Right for lines whose first word starts in column 1 and is followed by a blank, continuation lines and empty lines: cards and mode (C248_card_partial), materials (C248_material_partial), tallies (C248_tally_partial), numbers (C248_numbers_partial), surfaces (C248_surfaces_partial), cell cards even with tabs (C248_cells_partial) and the whole file (C248_input_partial). Violated: with a tab behind the name a material is listed but read without nuclides, and a mode card is not found (C248_tab_violated). Continuation lines of cells are compared as they are."
  },
  {
   "property": "C249",
   "status": "partial",
   "theorems": [
    "Props.C249_read_partial",
    "Props.C249_suffix_violated",
    "Props.C249_isomer_violated"
   ],
   "note": "Every card made from an inventory is read back with one entry for each identifier, the number 1000 Z + A with `.0` behind it, and the printed fraction (C249_read_partial). Violated: the suffix that was asked for is on no entry (C249_suffix_violated), and nuclides with the same Z and A are merged into the last of them, so fractions are lost (C249_isomer_violated). The text of an identifier (a float because `apply` makes each row one type) is part of the model."
  },
  {
   "property": "C250",
   "status": "partial",
   "theorems": [
    "Props.C250_points_partial",
    "Props.C250_plane_partial",
    "Props.C250_sphere_partial",
    "Props.C250_circle_partial",
    "Props.C250_line_partial",
    "Props.C250_planes_partial",
    "Props.C250_rotate_partial",
    "Props.C250_rotate_violated",
    "Props.C250_segment_violated"
   ],
   "note": "Holds for points and rays (C250_points_partial), planes (C250_plane_partial, C250_planes_partial), spheres (C250_sphere_partial), circles (C250_circle_partial) and lines of two planes (C250_line_partial). Violated by the three rotations, whose result is relative to the centre and does not move with it (C250_rotate_violated, for every point and every move; C250_rotate_partial), and by the point where a segment meets a plane (C250_segment_violated)."
  },
  {
   "property": "C251",
   "status": "partial",
   "theorems": [
    "Props.C251_areas_partial",
    "Props.C251_volumes_partial",
    "Props.C251_points_partial",
    "Props.C251_sides_partial",
    "Props.C251_meet_partial",
    "Props.C251_coordinates_partial",
    "Props.C251_slope_partial",
    "Props.C251_slope_violated",
    "Props.C251_segment_violated"
   ],
   "note": "Holds for areas and volumes (C251_areas_partial, C251_volumes_partial), points (C251_points_partial), sides (C251_sides_partial), intersections (C251_meet_partial), coordinates (C251_coordinates_partial) and the slope of a line through points with different x (C251_slope_partial). Violated by the slope through two points above each other (C251_slope_violated) and by the point where a segment meets a plane (C251_segment_violated), for every other unit."
  },
  {
   "property": "C252",
   "status": "partial",
   "theorems": [
    "Props.C252_points_partial",
    "Props.C252_sides_partial",
    "Props.C252_meet_partial",
    "Props.C252_line_partial",
    "Props.C252_planes_partial",
    "Props.C252_planes_violated"
   ],
   "note": "Holds for points (C252_points_partial), sides (C252_sides_partial), angles and intersections (C252_meet_partial), the line of two planes under turns about z (C252_line_partial) and the distance of two planes whose normals have x not 0 (C252_planes_partial). Violated by the distance of two planes: every pair of parallel planes can be turned such that it is NaN (C252_planes_violated)."
  },
  {
   "property": "C253",
   "status": "partial",
   "theorems": [
    "Props.C253_tallies_partial",
    "Props.C253_file_partial",
    "Props.C253_file_violated",
    "Props.C253_other_end_violated"
   ],
   "note": "Every tally read from the lines of the reduced file is the one of the whole file (C253_tallies_partial), and a reduced file that can be read as a whole has tallies of the whole file only (C253_file_partial). Violated: reading the reduced file as a whole raises ValueError when no \"1mcnp\" line follows the termination line, since the version is looked up in the part that was cut off (C253_file_violated); a file that ends with another \"run terminated\" line than \"run terminated when\" is read but cannot be reduced (C253_other_end_violated)."
  },
  {
   "property": "C254",
   "status": "proved",
   "theorems": [
    "Props.C254_card",
    "Props.C254_data",
    "Props.C254_numbers",
    "Props.C254_input"
   ],
   "note": ""
  },
  {
   "property": "C255",
   "status": "proved",
   "theorems": [
    "Props.C255_cells",
    "Props.C255_surfaces",
    "Props.C255_input"
   ],
   "note": ""
  },
  {
   "property": "C256",
   "status": "partial",
   "theorems": [
    "Props.C256_data_partial",
    "Props.C256_blocks",
    "Props.C256_input_partial",
    "Props.C256_bare_violated"
   ],
   "note": "Holds for comment lines that start with c or C and a space (C256_data_partial, C256_blocks, C256_input_partial); the lists of lines kept with the input and the line numbers of comments differ. Violated by a comment line that is the letter c alone, which MCNP allows: it ends the material before it and the nuclides that follow are lost without an error (C256_bare_violated)."
  },
  {
   "property": "C257",
   "status": "proved",
   "theorems": [
    "Props.C257_point",
    "Props.C257_line",
    "Props.C257_slice",
    "Props.C257_bounds",
    "Props.C257_sum",
    "Props.C257_array"
   ],
   "note": ""
  },
  {
   "property": "C258",
   "status": "proved",
   "theorems": [
    "Props.C258_zeros",
    "Props.C258_peak",
    "Props.C258_weights",
    "Props.C258_pie",
    "Props.C258_ratio",
    "Props.C258_cut"
   ],
   "note": ""
  },
  {
   "property": "C259",
   "status": "partial",
   "theorems": [
    "Props.C259_point_partial",
    "Props.C259_line_partial",
    "Props.C259_slice_partial",
    "Props.C259_mids_partial",
    "Props.C259_mids_violated",
    "Props.C259_uniform_violated",
    "Props.C259_energy_violated",
    "Props.C259_peak",
    "Props.C259_spectrum",
    "Props.C259_bins"
   ],
   "note": "Holds for points, lines and slices of meshes whose mid points are given in the new unit (C259_point_partial, C259_line_partial, C259_slice_partial), for mid points up to the rounding (C259_mids_partial), for the peak, the spectrum at a time and bins (C259_peak, C259_spectrum, C259_bins). Violated by mid points, which are rounded to five decimals (C259_mids_violated), and by the absolute tolerance of the uniformity test (C259_uniform_violated) and of the choice of an energy (C259_energy_violated)."
  },
  {
   "property": "C260",
   "status": "partial",
   "theorems": [
    "Props.C260_title_partial",
    "Props.C260_digit_violated",
    "Props.C260_number_violated",
    "Props.C260_blank_violated"
   ],
   "note": "Holds for titles that are not blank and do not start with a digit (C260_title_partial). Violated: a title like \"3 0 degrees\" is read as a cell that is not in the input (C260_digit_violated), no input with the title \"2 spheres\" can be read (C260_number_violated), and none with a blank title (C260_blank_violated)."
  },
  {
   "property": "C261",
   "status": "partial",
   "theorems": [
    "Props.C261_partial",
    "Props.C261_violated"
   ],
   "note": "Holds for lines that are empty or do not start with a blank or with one of the letters m, f, e, t, s, v, k, p (C261_partial). Violated: the data block goes on to the end of the file, so a material behind the end is reported as part of the input (C261_violated)."
  },
  {
   "property": "C262",
   "status": "partial",
   "theorems": [
    "Props.C262_refused_partial",
    "Props.C262_violated"
   ],
   "note": "Never read as something else: with a message block whose lines do not start with a digit every input is refused with AttributeError or KeyError (C262_refused_partial). Violated: an input that can be read cannot be read with a message block (C262_violated)."
  },
  {
   "property": "C263",
   "status": "proved",
   "theorems": [
    "Props.C263_file",
    "Props.C263_tally",
    "Props.C263_numbers"
   ],
   "note": ""
  },
  {
   "property": "C264",
   "status": "partial",
   "theorems": [
    "Props.C264_lines_partial",
    "Props.C264_file_partial",
    "Props.C264_continued_violated"
   ],
   "note": "Holds for mphys cards in small letters that start in column 1 and are not continued: for the lines (C264_lines_partial) and for the file before and after vised_compatible (C264_file_partial). Violated: when the mphys card is continued, its continuation line becomes part of the card in front of it, for example of a material (C264_continued_violated)."
  },
  {
   "property": "C265",
   "status": "partial",
   "theorems": [
    "Props.C265_partial",
    "Props.C265_violated"
   ],
   "note": "Every mphys in small letters stands behind the letter c and a blank (C265_partial). Violated: MPHYS in capital letters is left as it is (C265_violated)."
  },
  {
   "property": "C266",
   "status": "partial",
   "theorems": [
    "Props.C266_line",
    "Props.C266_default",
    "Props.C266_input_partial",
    "Props.C266_few_violated"
   ],
   "note": "Holds when a tab becomes five blanks or more: for each line (C266_line) and for the whole input (C266_input_partial); tabs in continuation lines of cells are left out. Violated: with four blanks the continuation lines of a material are not read (C266_few_violated)."
  },
  {
   "property": "C267",
   "status": "proved",
   "theorems": [
    "Props.C267_inventory",
    "Props.C267_composition",
    "Props.C267_filters",
    "Props.C267_material",
    "Props.C267_oos",
    "Props.C267_notOos",
    "Props.C267_limits",
    "Props.C267_series"
   ],
   "note": ""
  },
  {
   "property": "C268",
   "status": "proved",
   "theorems": [
    "Props.C268_commute",
    "Props.C268_lines",
    "Props.C268_line_order"
   ],
   "note": ""
  },
  {
   "property": "C269",
   "status": "proved",
   "theorems": [
    "Props.C269_append",
    "Props.C269_swap",
    "Props.C269_file",
    "Props.C269_mean"
   ],
   "note": ""
  },
  {
   "property": "C270",
   "status": "proved",
   "theorems": [
    "Props.C270_cells",
    "Props.C270_surfaces",
    "Props.C270_card",
    "Props.C270_material",
    "Props.C270_tally"
   ],
   "note": ""
  },
  {
   "property": "C271",
   "status": "partial",
   "theorems": [
    "Props.C271_data_partial",
    "Props.C271_tight_violated"
   ],
   "note": "Holds for comments with a blank before the dollar sign behind data cards (C271_data_partial). Violated without this blank: an input with the card m1$... cannot be read (C271_tight_violated). Comments behind surfaces (C89) and behind cells (C207) are read as part of the card."
  },
  {
   "property": "C272",
   "status": "partial",
   "theorems": [
    "Props.C272_point_partial",
    "Props.C272_line_partial",
    "Props.C272_counts_partial",
    "Props.C272_array_partial",
    "Props.C272_slice_violated",
    "Props.C272_array_violated"
   ],
   "note": "Holds for points, lines, counts of zeros and upper and lower values, which come in the order of the table (C272_point_partial, C272_line_partial, C272_counts_partial), and for arrays of tables that list every voxel once (C272_array_partial). Violated: the values of a slice stand in the order of the table (C272_slice_violated), and of a voxel listed for two energies an array has the value listed last (C272_array_violated)."
  },
  {
   "property": "C273",
   "status": "partial",
   "theorems": [
    "Props.C273_order_partial",
    "Props.C273_files_partial",
    "Props.C273_select_partial",
    "Props.C273_energy_violated",
    "Props.C273_last_violated"
   ],
   "note": "Holds for all files without energy meshes behind another mesh (C273_order_partial, C273_files_partial), and for a requested mesh that is not an energy mesh and not the last one (C273_select_partial). Violated: a file with an energy mesh can be read only if it stands first (C273_energy_violated), and a requested mesh that stands last is given together with all the others (C273_last_violated)."
  },
  {
   "property": "C274",
   "status": "partial",
   "theorems": [
    "Props.C274_input_partial",
    "Props.C274_input_violated",
    "Props.C274_mesh",
    "Props.C274_fispact_partial",
    "Props.C274_fispact_mass_violated",
    "Props.C274_fispact_version_violated",
    "Props.C274_xsdir",
    "Props.C274_plot",
    "Props.C274_fispact_input",
    "Props.C274_reduce",
    "Props.C274_lost",
    "Props.C274_printlib_partial",
    "Props.C274_ptrac_partial",
    "Props.C274_printlib_violated",
    "Props.C274_ptrac_violated",
    "Props.C274_ptrac_history_violated",
    "Props.C274_output_partial",
    "Props.C274_output_empty_violated",
    "Props.C274_output_time_violated"
   ],
   "note": "Holds for the readers of mesh tallies, directories of cross sections, histories for plots and FISPACT inputs, and for shortened outputs and lost points (C274_mesh, C274_xsdir, C274_plot, C274_fispact_input, C274_reduce, C274_lost). The other readers have a complete list of exceptions to the rule: MCNP inputs without cells (C274_input_partial), FISPACT outputs without the line of the mass or of version 2007 (C274_fispact_partial), emission lines without the line of the run time (C274_printlib_partial), PTRAC files with the second line of an event out of place (C274_ptrac_partial), MCNP outputs with the end of an iterator or a missing attribute (C274_output_partial; for which of them is not stated). Each exception has a witness (the _violated theorems)."
  },
  {
   "property": "C275",
   "status": "partial",
   "theorems": [
    "Props.C275_point_partial",
    "Props.C275_circle_partial",
    "Props.C275_planes_partial",
    "Props.C275_line_partial",
    "Props.C275_angle_violated",
    "Props.C275_distance_violated",
    "Props.C275_circle_violated",
    "Props.C275_segment_violated"
   ],
   "note": "Holds for normals to the same side (C275_point_partial, C275_circle_partial, C275_planes_partial); with the normal to the other side distances and sides change their sign and lines their direction (C275_point_partial, C275_line_partial), and circles are the same if plane and sphere meet (C275_circle_partial). Violated: parallel planes are recognised only by normals to the same side (C275_angle_violated, C275_distance_violated), a plane beside the sphere is rejected only on one side (C275_circle_violated), and the point of a line segment depends on the factor (C275_segment_violated)."
  },
  {
   "property": "C276",
   "status": "partial",
   "theorems": [
    "Props.C276_pairs_partial",
    "Props.C276_line_partial",
    "Props.C276_planes_violated",
    "Props.C276_segment_violated"
   ],
   "note": "Holds for points, lengths, radii and angles (C276_pairs_partial) and for lines of two planes (C276_line_partial). Violated: the distance of two planes changes its sign (C276_planes_violated), and the point of a line segment is another one from the other end (C276_segment_violated)."
  },
  {
   "property": "C277",
   "status": "partial",
   "theorems": [
    "Props.C277_printlib_partial",
    "Props.C277_fispact_partial",
    "Props.C277_reduce_partial",
    "Props.C277_ptrac_violated",
    "Props.C277_xsdir_violated",
    "Props.C277_mesh_violated",
    "Props.C277_output_violated"
   ],
   "note": "Holds for emission line lists cut at any character (C277_printlib_partial), for FISPACT outputs without the run time line (C277_fispact_partial) and for reduced outputs (C277_reduce_partial). Violated: track files, xsdir files, mesh tally files and MCNP outputs that were cut off are read without an error, with histories, nuclides, voxels or tallies missing (C277_ptrac_violated, C277_xsdir_violated, C277_mesh_violated, C277_output_violated)."
  },
  {
   "property": "C278",
   "status": "partial",
   "theorems": [
    "Props.C278_ptrac_partial",
    "Props.C278_xsdir_partial",
    "Props.C278_mesh_partial",
    "Props.C278_mesh_violated",
    "Props.C278_tables_violated",
    "Props.C278_output_violated"
   ],
   "note": "Holds for track files (C278_ptrac_partial), xsdir files (C278_xsdir_partial) and the lines of mesh tally files other than those with the number of a mesh (C278_mesh_partial). Violated: a blank behind the number of a mesh is a ValueError (C278_mesh_violated), a print table whose line ends with another blank is not found (C278_tables_violated), and a cell tally whose volume heading lost its blank is a ValueError (C278_output_violated)."
  },
  {
   "property": "C279",
   "status": "partial",
   "theorems": [
    "Props.C279_directory_partial",
    "Props.C279_thermal_partial",
    "Props.C279_weights_partial",
    "Props.C279_twice_violated",
    "Props.C279_lines_partial"
   ],
   "note": "Holds for xsdir files in which each name is defined once (C279_directory_partial, C279_thermal_partial, C279_weights_partial) and for the nuclides of emission line lists (C279_lines_partial). Violated: of a table named twice the last entry counts (C279_twice_violated)."
  },
  {
   "property": "C280",
   "status": "partial",
   "theorems": [
    "Props.C280_fispact",
    "Props.C280_output",
    "Props.C280_lines",
    "Props.C280_xsdir",
    "Props.C280_ptrac",
    "Props.C280_printlib",
    "Props.C280_log",
    "Props.C280_input",
    "Props.C280_mesh_violated"
   ],
   "note": "Holds for xsdir files, track files, emission line lists, run logs and MCNP inputs (C280_xsdir, C280_ptrac, C280_printlib, C280_log, C280_input), and for MCNP and FISPACT outputs of the form given in C296 (C280_output, C280_fispact). Violated: an empty line at the end of a mesh tally file is one more row of the table of its last mesh (C280_mesh_violated)."
  },
  {
   "property": "C281",
   "status": "partial",
   "theorems": [
    "Props.C281_partial",
    "Props.C281_scale",
    "Props.C281_violated"
   ],
   "note": "Holds for inventories in which no two rows stand at the same place of the chart (C281_partial); the colour scale is the same in every order (C281_scale). Violated: all isomeric states of an element are drawn at A = 0, and the last of them is the one that is seen, so that the order decides (C281_violated)."
  },
  {
   "property": "C282",
   "status": "partial",
   "theorems": [
    "Props.C282_plane",
    "Props.C282_segment",
    "Props.C282_planes_partial",
    "Props.C282_planes_violated",
    "Props.C282_ray",
    "Props.C282_missed",
    "Props.C282_sphere",
    "Props.C282_project",
    "Props.C282_circle",
    "Props.C282_line",
    "Props.C282_solids",
    "Props.C282_coordinates"
   ],
   "note": "Holds but for planes with opposite normals, whose distance is given as 0 whatever the distances of their points (C282_planes_violated), and for normals without first component (C114); C282_planes_partial is the part that holds for distances between planes. The right triangle of C282_circle is stated for legs that are not 0, see C123."
  },
  {
   "property": "C283",
   "status": "partial",
   "theorems": [
    "Props.C283_filters",
    "Props.C283_present",
    "Props.C283_scope",
    "Props.C283_above",
    "Props.C283_curve_partial",
    "Props.C283_chart_partial",
    "Props.C283_material",
    "Props.C283_lines",
    "Props.C283_both_violated"
   ],
   "note": "Holds for selections, presence, scope, materials and inventory lines (C283_filters, C283_present, C283_scope, C283_above, C283_material, C283_lines), for curves of nuclides that are in one of the parts only (C283_curve_partial) and for charts in which no two nuclides stand at the same place (C283_chart_partial). Violated: the curve of a nuclide in both parts is that of the first part (C283_both_violated)."
  },
  {
   "property": "C284",
   "status": "proved",
   "theorems": [
    "Props.C284_decay",
    "Props.C284_limits",
    "Props.C284_steps"
   ],
   "note": ""
  },
  {
   "property": "C285",
   "status": "partial",
   "theorems": [
    "Props.C285_fewest_partial",
    "Props.C285_exact_violated"
   ],
   "note": "Proved: no division has fewer lines (C285_fewest_partial), unless it fills the first line to the last column with a single word. Violated: such a word is put on a second line (C285_exact_violated), because the blank behind the prefix is counted twice."
  },
  {
   "property": "C286",
   "status": "partial",
   "theorems": [
    "Props.C286_readers_partial",
    "Props.C286_writers_partial",
    "Props.C286_ptrac_violated",
    "Props.C286_refused_violated",
    "Props.C286_same"
   ],
   "note": "Holds for all programs but one (C286_readers_partial, C286_writers_partial, C286_same). Violated: the program for track files parses its arguments and reads nothing, so it ends well for every name (C286_ptrac_violated, C286_refused_violated). argparse itself is not modelled."
  },
  {
   "property": "C287",
   "status": "partial",
   "theorems": [
    "Props.C287_readers",
    "Props.C287_lost_partial",
    "Props.C287_lost_same",
    "Props.C287_empty_violated",
    "Props.C287_reduce",
    "Props.C287_figure"
   ],
   "note": "Proved for names that are not empty (C287_lost_partial, C287_lost_same), for shortened outputs and for the programs that only read. Violated: an empty output name is taken as none, so lost.3d is written over (C287_empty_violated). The activation script is C109, the program for fluxes C242; writing of images and log files is not modelled."
  },
  {
   "property": "C288",
   "status": "partial",
   "theorems": [
    "Props.C288_cells_violated",
    "Props.C288_surfaces_violated",
    "Props.C288_materials_violated",
    "Props.C288_tallies_violated",
    "Props.C288_listed_partial",
    "Props.C288_tallies_listed_partial"
   ],
   "note": "Violated for every input: of cells and surfaces with the same number the last is kept (C288_cells_violated, C288_surfaces_violated), of materials and tallies the first (C288_materials_violated, C288_tallies_violated), without an exception. Proved: the lists of numbers have the number as often as there are cards, so a caller could notice (C288_listed_partial, C288_tallies_listed_partial)."
  },
  {
   "property": "C289",
   "status": "partial",
   "theorems": [
    "Props.C289_swap_partial",
    "Props.C289_three_partial",
    "Props.C289_order_partial",
    "Props.C289_real",
    "Props.C289_values_partial",
    "Props.C289_rows_violated"
   ],
   "note": "Proved for meshes with the same voxels in the same rows. Violated: rows are added by their number and not by their place, so for rows in another order the sum depends on which mesh comes first (C289_rows_violated). The error is a relative one and its combination is wrong (C60); meshes with five columns cannot be added (C59)."
  },
  {
   "property": "C290",
   "status": "partial",
   "theorems": [
    "Props.C290_points",
    "Props.C290_middle",
    "Props.C290_plane",
    "Props.C290_sense_plane",
    "Props.C290_sense_plane_sharp",
    "Props.C290_sense_sphere",
    "Props.C290_hypotenuse_partial",
    "Props.C290_hypotenuse_violated"
   ],
   "note": "Proved for distances between points, the point half way, distances from planes, senses of planes (with the sharp limit) and spheres, and hypotenuses of legs that are not 0. Violated by the hypotenuse at a leg of length 0: the result jumps to 0, by at least the other leg (C290_hypotenuse_violated)."
  },
  {
   "property": "C291",
   "status": "proved",
   "theorems": [
    "Props.C291_wider"
   ],
   "note": "The two runs of the loop are compared step by step: the one with wider lines has fewer finished lines, or equally many and a current line that is no longer."
  },
  {
   "property": "C292",
   "status": "proved",
   "theorems": [
    "Props.C292_order",
    "Props.C292_neighbours",
    "Props.C292_near"
   ],
   "note": "The order needs no assumption on the list of mid points; the neighbours need an increasing list. The distance is half the width of the voxel that contains the place, and 0.000005 for the rounding."
  },
  {
   "property": "C293",
   "status": "partial",
   "theorems": [
    "Props.C293_off",
    "Props.C293_same_partial",
    "Props.C293_others_kept",
    "Props.C293_files",
    "Props.C293_unwritable_violated",
    "Props.C293_own_violated"
   ],
   "note": "Proved where the files of the tallies can be written: the same result or the same exception (C293_same_partial), a file with its lines for every tally (C293_files), no other file changed (C293_others_kept). Violated: where they cannot be written a good output file cannot be read (C293_unwritable_violated); an output file called as the file of one of its tallies is replaced by the lines of that tally (C293_own_violated)."
  },
  {
   "property": "C294",
   "status": "proved",
   "theorems": [
    "Props.C294_readers",
    "Props.C294_fluxes",
    "Props.C294_reduce",
    "Props.C294_lost"
   ],
   "note": "Proved for the readers, the fluxes, the reduced output files (also onto the file itself) and the lost points, for every state of the files. The programs are those of Model/Programs and FluxesWriter.main; that the preparation of FISPACT runs can be repeated is C239_again."
  },
  {
   "property": "C295",
   "status": "proved",
   "theorems": [
    "Props.C295_replaced",
    "Props.C295_first",
    "Props.C295_moved",
    "Props.C295_removed",
    "Props.C295_inserted",
    "Props.C295_behind"
   ],
   "note": "Proved for files whose summary stands behind the steps that are replaced and whose first fifty lines, which hold the version, stay; the lines of the two steps contain none of the labels looked for in the whole file (StepText). The lines between the first two start lines belong to no step (C75) and may be replaced as well (C295_first). Lines behind the tables of a step, such as the summary behind the last one, do not change its record either (C295_behind, for steps whose tables end within their lines)."
  },
  {
   "property": "C296",
   "status": "proved",
   "theorems": [
    "Props.C296_mcnp",
    "Props.C296_fispact"
   ],
   "note": "For MCNP outputs with their head in the first hundred lines and no tally that begins directly behind the heading of another (McnpFile); for FISPACT outputs whose last step has its tables complete (FispactFile). The lines added contain nothing that is looked for (NoMcnp, NoFispact). An output of 101 lines with its head in the last of them can no longer be read when a line is added, an example shows this."
  },
  {
   "property": "C297",
   "status": "partial",
   "theorems": [
    "Props.C297_mcnp_partial",
    "Props.C297_version_violated",
    "Props.C297_fispact_partial",
    "Props.C297_fispact_violated",
    "Props.C297_mesh"
   ],
   "note": "Partial. The version of MCNP is read from the first line of the file only, so that any line in front of it, even an empty one, hides it (C297_version_violated), and the date is looked for in the first hundred lines; everything else of an MCNP output stays as it was, errors included (C297_mcnp_partial). FISPACT outputs stay as they were (C297_fispact_partial) unless the line that names FISPACT 07 leaves the first fifty lines, in which case the file is taken for one of FISPACT-II (C297_fispact_violated). Mesh tally files stay as they were (C297_mesh)."
  },
  {
   "property": "C298",
   "status": "partial",
   "theorems": [
    "Props.C298_tally_partial",
    "Props.C298_output_partial",
    "Props.C298_cells",
    "Props.C298_setup",
    "Props.C298_tallied",
    "Props.C298_activation",
    "Props.C298_order_violated"
   ],
   "note": "Partial. The tallies of an output are listed in the order of a set, so that the first tally may be another one in the next run (C298_order_violated), and the surfaces of a tally of type 1 are, too (C138). Everything else is the same for every order: the tallies themselves (C298_tally_partial), the rest of the output (C298_output_partial), the tallied cells and the tallies for the activation up to their order (C298_cells, C298_tallied) and, if the FILES file lies outside the folders of the cells and both runs return, all files after the activation (C298_setup, C298_activation)."
  },
  {
   "property": "C299",
   "status": "partial",
   "theorems": [
    "Props.C299_column",
    "Props.C299_points",
    "Props.C299_array_partial",
    "Props.C299_array_violated"
   ],
   "note": "Partial. Columns of slices are lines (C299_column), lines consist of points if every row of the table belongs to a mid point (C299_points), and the array agrees with the points for meshes with six columns (C299_array_partial). A mesh with five columns has points but no array (C299_array_violated)."
  },
  {
   "property": "C300",
   "status": "partial",
   "theorems": [
    "Props.C300_material_partial",
    "Props.C300_void_violated"
   ],
   "note": "Partial. For cells with a material the check tells exactly whether there is a card of the material (C300_material_partial, for material cards with a decimal number followed by white space). Void cells, which need no material, fail the check (C300_void_violated)."
  },
  {
   "property": "C301",
   "status": "proved",
   "theorems": [
    "Props.C301_order",
    "Props.C301_run"
   ],
   "note": "Holds for the whole run (C301_run), because the values read are the same (C301_order). The entries have different keys, as those of a parsed JSON object have."
  },
  {
   "property": "C302",
   "status": "partial",
   "theorems": [
    "Props.C302_alone_partial",
    "Props.C302_replaced_partial",
    "Props.C302_removed_partial",
    "Props.C302_energy_violated"
   ],
   "note": "Partial. Holds for meshes alone, replaced and taken out (C302_alone_partial, C302_replaced_partial, C302_removed_partial) as long as no energy mesh stands behind another mesh. An energy mesh that is read from a file of its own stops the reader with a ValueError behind any other mesh (C302_energy_violated)."
  },
  {
   "property": "C303",
   "status": "partial",
   "theorems": [
    "Props.C303_numbers",
    "Props.C303_material",
    "Props.C303_surface_partial",
    "Props.C303_union_violated"
   ],
   "note": "Partial. Numbers and materials hold for all cards (C303_numbers, C303_material), surfaces for cards whose geometry is written in the way of C206 (C303_surface_partial). A cell with the geometry 1:-2 is not found at surface 2, because the sign is kept (C303_union_violated)."
  },
  {
   "property": "C304",
   "status": "partial",
   "theorems": [
    "Props.C304_csv_partial",
    "Props.C304_comma_violated",
    "Props.C304_points"
   ],
   "note": "Partial. Points are read back (C304_points) and so are tables of values without commas (C304_csv_partial). A tally with energy bins has a list as the result of a cell; its text has commas and is written without quotes, so that the row has more than four fields (C304_comma_violated)."
  },
  {
   "property": "C305",
   "status": "partial",
   "theorems": [
    "Props.C305_lost_partial",
    "Props.C305_old_file_violated"
   ],
   "note": "Partial. Holds if at least one particle was lost (C305_lost_partial). If none was lost nothing is written, and the file of an earlier run stays under the same name with the points of another output (C305_old_file_violated)."
  },
  {
   "property": "C306",
   "status": "partial",
   "theorems": [
    "Props.C306_check_partial",
    "Props.C306_above_violated",
    "Props.C306_below_violated"
   ],
   "note": "Partial. A caller could notice: the group found contains the energy exactly if check_upper_bound accepts it and it is above the lowest boundary (C306_check_partial). The program does not ask: for every energy above the structure it does the same as for the highest energy (C306_above_violated), and for every energy at or below the lowest boundary the same as for the lowest group, which check_upper_bound accepts as well (C306_below_violated)."
  },
  {
   "property": "C307",
   "status": "partial",
   "theorems": [
    "Props.C307_point_violated",
    "Props.C307_slice_violated",
    "Props.C307_line_violated",
    "Props.C307_energy_partial",
    "Props.C307_time_partial"
   ],
   "note": "Partial. Energies and times other than 0 that the mesh does not have give no value (C307_energy_partial, C307_time_partial). Places behind the last mid point or in front of the first one are moved to it, however far away they are (C307_point_violated, C307_slice_violated, C307_line_violated)."
  },
  {
   "property": "C308",
   "status": "partial",
   "theorems": [
    "Props.C308_thermal_violated",
    "Props.C308_directory_violated",
    "Props.C308_front_partial"
   ],
   "note": "Partial. What stands in front of a section is not in it, and a section that the file does not have is empty (C308_front_partial). A section does not end where the next one begins: entries of the thermal scattering data are in the directory too (C308_thermal_violated), and entries of a directory behind them are in the thermal scattering data (C308_directory_violated)."
  },
  {
   "property": "C309",
   "status": "partial",
   "theorems": [
    "Props.C309_datapath_partial",
    "Props.C309_directory_violated",
    "Props.C309_weights_violated"
   ],
   "note": "Partial. The data path does not depend on the case of its line (C309_datapath_partial). A directory or atomic weight ratios with a heading that begins with a capital letter are not found (C309_directory_violated, C309_weights_violated)."
  },
  {
   "property": "C310",
   "status": "partial",
   "theorems": [
    "Props.C310_time_violated",
    "Props.C310_peak_violated",
    "Props.C310_energy_violated",
    "Props.C310_bin_partial",
    "Props.C310_slice_partial"
   ],
   "note": "Partial. For an energy or time of a bin the values of that bin are taken (C310_bin_partial, C310_slice_partial). An energy or time above all bins or below them gives the result of the outermost bin, however far away it is (C310_time_violated, C310_energy_violated, C310_peak_violated)."
  },
  {
   "property": "C311",
   "status": "partial",
   "theorems": [
    "Props.C311_fraction_violated",
    "Props.C311_density_violated",
    "Props.C311_density_partial",
    "Props.C311_fraction_partial"
   ],
   "note": "Partial. Numbers that float reads are the density and the fractions (C311_density_partial, C311_fraction_partial). Cell blocks and material cards with a number in the short form raise an exception (C311_density_violated, C311_fraction_violated), for every parser that rejects these numbers, as float does."
  },
  {
   "property": "C312",
   "status": "partial",
   "theorems": [
    "Props.C312_energy_violated",
    "Props.C312_mesh_violated",
    "Props.C312_energy_partial"
   ],
   "note": "Partial. Results that float reads are read bin by bin (C312_energy_partial; for mesh tallies C64_all_partial). One number in the short form makes the energy bins or the whole mesh tally file unreadable (C312_energy_violated, C312_mesh_violated), for every parser that rejects these numbers, as float and pandas.to_numeric do."
  },
  {
   "property": "C313",
   "status": "partial",
   "theorems": [
    "Props.C313_twice_violated",
    "Props.C313_once_partial"
   ],
   "note": "Partial. If no nuclide is listed twice, each has its fraction (C313_once_partial). Of a nuclide that is listed again only the last fraction is kept (C313_twice_violated)."
  },
  {
   "property": "C314",
   "status": "partial",
   "theorems": [
    "Props.C314_surfaces_violated",
    "Props.C314_lookup_partial"
   ],
   "note": "Partial. The surfaces of an input that was read are exactly those with a card, so they can be looked up (C314_lookup_partial). The reader itself does not notice: all surface cards can be taken away from an input and it is read with the same cells (C314_surfaces_violated)."
  },
  {
   "property": "C315",
   "status": "partial",
   "theorems": [
    "Props.C315_cells_violated",
    "Props.C315_words_partial"
   ],
   "note": "Partial. Each tally that is listed keeps the words of its card, so its cells can be looked up (C315_words_partial). The reader itself does not notice: the cells can be replaced by those of any other input and the tallies are read as before (C315_cells_violated)."
  },
  {
   "property": "C316",
   "status": "proved",
   "theorems": [
    "Props.C316_round",
    "Props.C316_high",
    "Props.C316_ball",
    "Props.C316_cylinder"
   ],
   "note": ""
  },
  {
   "property": "C317",
   "status": "proved",
   "theorems": [
    "Props.C317_again",
    "Props.C317_same",
    "Props.C317_two_words"
   ],
   "note": ""
  },
  {
   "property": "C318",
   "status": "proved",
   "theorems": [
    "Props.C318_inside",
    "Props.C318_together"
   ],
   "note": ""
  },
  {
   "property": "C319",
   "status": "proved",
   "theorems": [
    "Props.C319_line_ind",
    "Props.C319_missing",
    "Props.C319_longer_line",
    "Props.C319_longer_ind",
    "Props.C319_shift",
    "Props.C319_zeros"
   ],
   "note": ""
  },
  {
   "property": "C320",
   "status": "partial",
   "theorems": [
    "Props.C320_cell_violated",
    "Props.C320_surface_violated",
    "Props.C320_cell_partial",
    "Props.C320_surface_partial"
   ],
   "note": "Partial. All characters besides digits, signs, white space and underscores are refused with ValueError (C320_cell_partial, C320_surface_partial). An underscore between two digits is left out, as in Python programs: cell 1_0 becomes cell 10 (C320_cell_violated, C320_surface_violated)."
  }
 ]
}