{"id": "C01", "title": "Text file round trip", "statement": "Writing a list of lines with write_lines and reading the file back with get_lines returns exactly the same list if and only if no line contains a character that Python counts as a line boundary; in particular nothing is lost, merged, reordered or added, and no file other than the target path changes.", "quantifier": "every list of strings (any length, any Unicode content), every path, every prior content of the file system", "why_tests_cant": "The space of line contents is infinite and the failing contents (form feed, U+0085, U+2028, file separators...) are exactly the ones nobody puts into a fixture.", "anchors": ["neut_utilities.py: write_lines", "neut_utilities.py: get_lines"]}
{"id": "C02", "title": "Reading a file always yields clean lines and is stable", "statement": "For every text file content, get_lines returns lines none of which contains a line-boundary character; rewriting what was read with write_lines and reading again returns the same list; the concatenation of the returned lines is the file content with the line boundaries removed.", "quantifier": "every possible file content", "why_tests_cant": "Needs all mixtures of CR, LF, CRLF and exotic boundaries, with and without a final newline.", "anchors": ["neut_utilities.py: get_lines", "neut_utilities.py: write_lines"]}
{"id": "C03", "title": "find_line returns the first line whose leading characters equal the text", "statement": "find_line(text, lines, n) returns index i exactly when the first n characters of line i equal text and no earlier line has that property; it raises ValueError exactly when there is no such line. When the text has exactly n characters that means 'starts with text'; when it is longer than n it can never be found; when shorter only a line equal to the whole text matches.", "quantifier": "every text, every list of lines, every non-negative n", "why_tests_cant": "Every parser in the package locates its sections by this function; tests sample a handful of headers while correctness depends on the relation between len(text) and n for all inputs.", "anchors": ["neut_utilities.py: find_line"]}
{"id": "C04", "title": "Cleaning and splitting yields exactly the words of the line", "statement": "string_clean_and_split(text) returns the maximal runs of non-white-space characters of text, in order, or [''] when the text has none; string_cleaner is idempotent, has no leading/trailing/double spaces, and preserves the sequence of non-white-space characters.", "quantifier": "every string, including every Unicode white-space character", "why_tests_cant": "Combinations of tabs, NBSP, repeated and trailing blanks are unbounded.", "anchors": ["neut_utilities.py: string_cleaner", "neut_utilities.py: string_clean_and_split"]}
{"id": "C05", "title": "find_ind returns the first line that contains the substring", "statement": "find_ind(data, sub) returns i exactly when sub occurs as a contiguous substring of data[i] and of no earlier entry; it raises ValueError exactly when sub occurs in no entry.", "quantifier": "every list of strings and every substring (including the empty one)", "why_tests_cant": "Overlapping partial matches and empty needles are a classic source of errors that a finite set of samples does not cover.", "anchors": ["neut_utilities.py: find_ind"]}
{"id": "C06", "title": "First zero and first non-zero positions", "statement": "find_first_zero / find_first_non_zero return the least index holding a zero / a non-zero value and None exactly when there is none; on every non-empty list exactly one of the two returns 0, and a list has None for one of them iff it is all non-zero / all zero.", "quantifier": "every finite list of numbers", "why_tests_cant": "Universally quantified over values and lengths; the interplay of the two functions is not a single test case.", "anchors": ["neut_utilities.py: find_first_non_zero", "neut_utilities.py: find_first_zero"]}
{"id": "C07", "title": "get_list_dimensions terminates and describes the nested list", "statement": "get_list_dimensions terminates on every nested list and returns the lengths met going down first elements; for a rectangular nested list of shape d1 x ... x dk these are d1..dk; for a non-list it returns [].", "quantifier": "every finite nested list", "why_tests_cant": "Non-termination cannot be observed by a test; the shape claim is for every rank and size.", "anchors": ["neut_utilities.py: get_list_dimensions"]}
{"id": "C08", "title": "In-place text replacement changes exactly the requested occurrences", "statement": "After text_replace(fname, old, new) the file holds the previous text with the left-to-right non-overlapping occurrences of old replaced by new and nothing else altered; a file in which old does not occur is left byte-for-byte unchanged; other files are untouched; if the file cannot be read nothing is written.", "quantifier": "every file content, every non-empty old, every new, every file system state", "why_tests_cant": "Byte-for-byte preservation over all contents (including CRLF files) and failure before write are not testable by samples.", "anchors": ["neut_utilities.py: text_replace"]}
{"id": "C09", "title": "Tolerance comparison behaves as a tolerance", "statement": "is_same_value is symmetric, translation invariant, monotone in the tolerance, reflexive exactly when the tolerance is positive, excludes the boundary |v1-v2| = tolerance, satisfies the triangle rule (same within a and same within b gives same within a+b) and is not transitive for any positive tolerance.", "quantifier": "all real values and all real tolerances", "why_tests_cant": "Laws over a continuum of values.", "anchors": ["neut_utilities.py: is_same_value"]}
{"id": "C10", "title": "Tab detection and removal", "statement": "find_tabs_in_list returns exactly the indices, in increasing order and without repetition, of the lines that contain a tab; after replace_tab_with_space with any count on every line it returns []; replacement leaves all other characters in order and a line of n characters with k tabs becomes n + k*(max(count,0)-1) characters long.", "quantifier": "every list of lines, every integer count (including zero and negative)", "why_tests_cant": "All positions and multiplicities of tabs, all counts.", "anchors": ["neut_utilities.py: find_tabs_in_list", "neut_utilities.py: replace_tab_with_space"]}
{"id": "C11", "title": "Logger set-up leaves exactly the requested handlers", "statement": "After any history of setup_logging / get_logger / setup_ntlogger calls whose last call succeeded, the shared logger has exactly one console handler, at the requested level, plus exactly one file handler iff a log file was given, whatever ran before; get_logger never removes or duplicates handlers; a call with an unknown level raises and never leaves more handlers than a successful call would.", "quantifier": "every finite history of calls with arbitrary arguments", "why_tests_cant": "Depends on the whole call history of a process-wide shared logger.", "anchors": ["neut_utilities.py: NeutronToolsLogger.setup_logging", "neut_utilities.py: NeutronToolsLogger.get_logger", "neut_utilities.py: setup_ntlogger"]}
{"id": "C12", "title": "wrap_tokens loses, adds and reorders nothing", "statement": "When wrap_tokens(prefix, tokens, max_len, cont_prefix) returns and cont_prefix is blank, the white-space separated words of the returned lines, read line after line, are the words of the prefix followed by the words of the tokens in order.", "quantifier": "every prefix, every list of tokens, every max_len, every blank continuation prefix", "why_tests_cant": "Loss or duplication at a wrap point only shows for particular length combinations; there are infinitely many.", "anchors": ["output_utilities.py: wrap_tokens"]}
{"id": "C13", "title": "wrap_tokens respects the line width", "statement": "Every line returned by wrap_tokens is at most max_len characters long.", "quantifier": "every prefix, token list, max_len and continuation prefix", "why_tests_cant": "A width violation needs a particular alignment of prefix, token and width; sampling can miss it (and does).", "anchors": ["output_utilities.py: wrap_tokens"]}
{"id": "C14", "title": "wrap_tokens fails exactly on over-long tokens and marks continuations", "statement": "wrap_tokens raises ValueError exactly when some token that is not blank is, stripped, longer than max_len; otherwise every line after the first starts with the (space terminated) continuation prefix, and no returned line ends in white space.", "quantifier": "every prefix, token list, max_len, continuation prefix", "why_tests_cant": "Error condition and shape of every line for all inputs.", "anchors": ["output_utilities.py: wrap_tokens"]}
{"id": "C15", "title": "Wrapped cards survive the MCNP reader's continuation rule", "statement": "Lines produced by wrap_tokens with the default continuation prefix for a card are read back by the input reader's card extraction as one card with the same words in the same order (tokens lower case and without '$').", "quantifier": "every card name, every token list, every width for which wrap_tokens succeeds", "why_tests_cant": "A round trip between two modules over all token lists and wrap positions.", "anchors": ["output_utilities.py: wrap_tokens", "mcnp_input_reader.py: get_card_lines", "mcnp_input_reader.py: is_continue_line"]}
{"id": "C16", "title": "Point output writes one row per point or nothing", "statement": "output_points writes to outpath + '.3d' the header 'x y z temp' followed by exactly one row per point in order ('x y z value', value 1 when no data given) when all lists have equal length; otherwise it raises ValueError and the file system is unchanged.", "quantifier": "every set of coordinate and data lists, every path, every file system state", "why_tests_cant": "All lengths and the no-write-on-error guarantee for every state.", "anchors": ["output_utilities.py: output_points"]}
{"id": "C17", "title": "Tabular tally output has one row per tally and cell", "statement": "csv_out writes exactly one row 'number, cell, result, error' per (tally, cell) pair in order; html_f4_tab_out puts exactly those pairs in table rows; when a tally has fewer results or errors than cells both raise IndexError and write nothing; a single tally and a one-element list give the same file.", "quantifier": "every list of tallies of every size, every file system state", "why_tests_cant": "All shapes of the result lists including short ones, and absence of partial writes.", "anchors": ["output_utilities.py: csv_out", "output_utilities.py: html_f4_tab_out"]}
{"id": "C18", "title": "HTML report is written", "statement": "html_output(mc_object, fname) for a well formed object writes the report to fname.", "quantifier": "every well formed output object and path", "why_tests_cant": "The call depends on a function that does not exist in the utilities module; only a statement over all objects shows that no input ever succeeds.", "anchors": ["output_utilities.py: html_output"]}
{"id": "C19", "title": "Output file reduction keeps exactly the tail from the termination line", "statement": "reduce_ofile writes exactly the lines of the input from the first line starting with '      run terminated when' to the end; reducing a reduced file gives the same file; if no such line exists it raises and writes nothing.", "quantifier": "every input file content and file system state", "why_tests_cant": "All contents and idempotence, plus no write on the failing path.", "anchors": ["ofile_reduce.py: reduce_ofile"]}
{"id": "C20", "title": "Lost particle extraction is complete", "statement": "output_lost_points returns the number of lines containing 'x,y,z coordinates:', writes a file with exactly one row per such line in order when there is at least one, writes nothing when there is none, and when any of the three fixed columns of such a line is not a number it raises ValueError and writes nothing.", "quantifier": "every file content, every float parser, every file system state", "why_tests_cant": "All file contents, malformed ones included, and absence of partial output.", "anchors": ["lost_points.py: output_lost_points"]}
{"id": "C21", "title": "printlib filters select exactly the matching emission lines", "statement": "energy_filter keeps exactly the rows with energy strictly above the threshold and particle_filter exactly the rows with the given particle, both in order; the two filters commute, are idempotent and filtering by a higher threshold after a lower one equals filtering by the higher.", "quantifier": "every table of emission lines, every threshold (NaN included), every particle name", "why_tests_cant": "Algebraic laws for all tables.", "anchors": ["fispact_printlib_reader.py: energy_filter", "fispact_printlib_reader.py: particle_filter"]}
{"id": "C22", "title": "printlib reader returns one row per emission line with the right nuclide", "statement": "For a printlib file whose discrete section consists of well formed rows and that ends with the run time line, the returned table has exactly one row per data line of the discrete section, in order, and the nuclide of a row is the last nuclide named at or before that line.", "quantifier": "every file content", "why_tests_cant": "Carry-forward state over arbitrarily long files.", "anchors": ["fispact_printlib_reader.py: read_fispact_printlib"]}
{"id": "C23", "title": "printlib reader reports malformed input as IOError and never returns a partial table", "statement": "read_fispact_printlib either returns the complete table or raises: FileNotFoundError if the path does not exist, ValueError if it is not a file, IOError for any malformed content (including a file that ends before the run time line).", "quantifier": "every file system state and file content, every float parser", "why_tests_cant": "All malformed contents.", "anchors": ["fispact_printlib_reader.py: read_fispact_printlib"]}
{"id": "C24", "title": "xsdir directory lookup returns the last entry of each table", "statement": "After read_xsdir the directory maps a table identifier to the fields of the last line of the directory section starting with that identifier, contains every line of the section with at least two fields, and contains nothing else.", "quantifier": "every file content", "why_tests_cant": "Duplicates and ordering over arbitrarily long files.", "anchors": ["xsdir_reader.py: XSDir._process_directory"]}
{"id": "C25", "title": "xsdir atomic weight ratios", "statement": "The awr table maps exactly the second field of each line with at least three fields between the 'atomic' line and the 'directory' line to the number in the third field (last one wins), and a third field that is not a number raises ValueError.", "quantifier": "every file content, every float parser", "why_tests_cant": "All section layouts, incl. missing sections.", "anchors": ["xsdir_reader.py: XSDir._process_awr"]}
{"id": "C26", "title": "xsdir data path is returned as written", "statement": "If the xsdir file has a line 'datapath = <path>', the datapath reported is the path exactly as written in the file (surrounding blanks removed); if no line starts with datapath it is None.", "quantifier": "every file content", "why_tests_cant": "Case sensitivity only matters for paths that contain capitals.", "anchors": ["xsdir_reader.py: XSDir._process_datapath"]}
{"id": "C27", "title": "ptrac decoding inverts the event encoding", "statement": "For every list of histories with distinct contents, printing the track section in the MCNP layout (history line, then two lines per event, the second with nine entries) and processing it returns the same number of histories, each with the same history number and the same events in the same order.", "quantifier": "every list of histories, every number of events per history, every float parser", "why_tests_cant": "Round trip over unboundedly many histories and events.", "anchors": ["mcnp_ptrac_reader.py: process_tracks", "mcnp_ptrac_reader.py: process_event"]}
{"id": "C28", "title": "ptrac event equality is field equality", "statement": "Comparing two events with == is True exactly when all twelve fields agree; it is reflexive, symmetric and transitive (fields not NaN), and comparing with something that is not an event is not truthy.", "quantifier": "all pairs of events and all non-event values", "why_tests_cant": "Laws over all field combinations.", "anchors": ["mcnp_ptrac_reader.py: event.__eq__"]}
{"id": "C29", "title": "ptrac mean number of events", "statement": "mean_num_events returns the total number of events divided by the number of histories for every non-empty list, lies between the smallest and the largest number of events of a history, and raises ZeroDivisionError exactly for the empty list.", "quantifier": "every list of histories", "why_tests_cant": "All lists.", "anchors": ["mcnp_ptrac_reader.py: mean_num_events"]}
{"id": "C30", "title": "ptrac header removal partitions the file", "statement": "remove_header returns the first nine lines and the rest: their concatenation is the file, the head has min(9, n) lines, and reading a ptrac file processes exactly the lines after the ninth.", "quantifier": "every list of lines", "why_tests_cant": "All file lengths including shorter than the header.", "anchors": ["mcnp_ptrac_reader.py: remove_header", "mcnp_ptrac_reader.py: read_ptrac"]}
{"id": "C31", "title": "Unit conversions that come in pairs are mutually inverse", "statement": "Each pair of opposite conversions (rem/Sv, eV/J, s/h, s/day, s/shake, barn/cm2, Bq/Ci, s/year) composes to the identity on every value.", "quantifier": "every real value and each pair", "why_tests_cant": "Tests check single values with a tolerance which hides factor mismatches.", "anchors": ["neut_constants.py: rem_to_Sv", "neut_constants.py: sv_to_rem", "neut_constants.py: eV_to_joule", "neut_constants.py: joule_to_ev", "neut_constants.py: second_to_hour", "neut_constants.py: hour_to_second", "neut_constants.py: bq_to_curie", "neut_constants.py: curie_to_bq", "neut_constants.py: years_to_seconds", "neut_constants.py: second_to_year", "neut_constants.py: second_to_day", "neut_constants.py: day_to_second", "neut_constants.py: second_to_shake", "neut_constants.py: shake_to_second", "neut_constants.py: barn_to_cm2", "neut_constants.py: cm2_to_barn"]}
{"id": "C32", "title": "Time conversions agree with each other", "statement": "years_to_seconds = day_to_second after years_to_days = hour_to_second after years_to_hrs for every value; shake_to_ms agrees with shake_to_second scaled to milliseconds; all conversions are linear and preserve order.", "quantifier": "every real value", "why_tests_cant": "Equality of composed conversions for all values.", "anchors": ["neut_constants.py: years_to_days", "neut_constants.py: years_to_hrs", "neut_constants.py: years_to_seconds", "neut_constants.py: day_to_second", "neut_constants.py: hour_to_second", "neut_constants.py: shake_to_ms", "neut_constants.py: shake_to_second"]}
{"id": "C33", "title": "Element table is a bijection onto 1..118", "statement": "Z_dict has exactly 118 symbols, no two symbols share an atomic number, and every atomic number 1..118 belongs to exactly one symbol; every symbol has one or two letters, capital first.", "quantifier": "all keys and all atomic numbers", "why_tests_cant": "A statement about the whole table and its inverse, not one lookup.", "anchors": ["neut_constants.py: Z_dict"]}
{"id": "C34", "title": "Group lookup returns the bin containing the energy", "statement": "For descending boundaries with at least two entries and an energy within the range (not above the top, above the bottom), get_group_pos returns the unique i with g[i] >= e > g[i+1]; energies above the top go to bin 0, at or below the bottom to bin n-2; for a number the result is always a valid bin index and never -1; it is monotone: higher energy gives an equal or lower index.", "quantifier": "every strictly descending boundary list with at least two entries and every energy", "why_tests_cant": "Uniqueness and totality over a continuum of energies and all group structures.", "anchors": ["fispact_fluxes_writer.py: get_group_pos"]}
{"id": "C35", "title": "Built-in group structures are well formed", "statement": "get_group_struct('162') and ('709') return strictly descending positive boundaries with 162 and 709 entries; any other name gives False, and check_group_struct accepts exactly those two names.", "quantifier": "every pair of adjacent boundaries and every name", "why_tests_cant": "A statement over the whole tables and over every other string.", "anchors": ["fispact_fluxes_writer.py: get_group_struct", "fispact_fluxes_writer.py: check_group_struct"]}
{"id": "C36", "title": "Single bin flux vector", "statement": "create_fluxes_data(groups, i) has len(groups)+1 entries: 1 at i and at the end, 0 elsewhere, so its sum is 2; it raises ValueError exactly when i is not an index of groups.", "quantifier": "every list of groups, every integer i", "why_tests_cant": "All lengths and positions.", "anchors": ["fispact_fluxes_writer.py: create_fluxes_data"]}
{"id": "C37", "title": "MCNP spectrum conversion reverses and is invertible", "statement": "convert_mcnp_spect_to_fispact_fluxes_format returns the reverse of the spectrum followed by 1.0 for every spectrum given low to high energy: the total is preserved (+1), and the original spectrum is recovered by dropping the last entry and reversing; empty input raises ValueError.", "quantifier": "every spectrum of flux values ordered by energy", "why_tests_cant": "Holds for all lengths and values; spectra whose values are not themselves increasing are typical in practice.", "anchors": ["fispact_fluxes_writer.py: convert_mcnp_spect_to_fispact_fluxes_format"]}
{"id": "C38", "title": "Monoenergetic fluxes file puts the particle in the bin of its energy", "statement": "The command line work flow (group name, energy in MeV) writes a file with one line per group plus one power line, whose only non-zero group is the one containing the energy.", "quantifier": "both group structures and every energy within the range of the structure", "why_tests_cant": "All energies; a unit mismatch in one of the tables is invisible for energies tested in the table's own units.", "anchors": ["fispact_fluxes_writer.py: get_group_struct", "fispact_fluxes_writer.py: get_group_pos", "fispact_fluxes_writer.py: create_fluxes_data", "fispact_fluxes_writer.py: write_fluxes_file"]}
{"id": "C39", "title": "Bin widths telescope", "statement": "calc_bin_width returns one width per bin edge whose partial sums give back the edges (in particular the sum is the last edge); all widths are positive iff the edges are positive and strictly increasing; fewer than two edges raise ValueError.", "quantifier": "every list of edges", "why_tests_cant": "All lists.", "anchors": ["mcnp_analysis.py: calc_bin_width"]}
{"id": "C40", "title": "Mid points lie between consecutive bounds", "statement": "calc_mid_points returns len-1 values (none for fewer than two bounds), the i-th exactly halfway between bounds i and i+1; for increasing bounds they are increasing and each lies strictly inside its bin.", "quantifier": "every list of bounds", "why_tests_cant": "All lists.", "anchors": ["mcnp_analysis.py: calc_mid_points"]}
{"id": "C41", "title": "Peak time is the time of a maximal flux at the nearest energy", "statement": "find_peak_time returns time_arr[k] where k is the first index of the maximum of the flux row (restricted to the length of the time array) belonging to the first energy bin nearest to the target; no other time has a larger flux and no other energy is closer.", "quantifier": "every energy list, time list, result matrix with a row per energy, every target", "why_tests_cant": "Ties and unequal lengths for all matrices.", "anchors": ["mcnp_analysis.py: find_peak_time"]}
{"id": "C42", "title": "Normalisation and absolute errors are linear and length checked", "statement": "normalise scales every entry by the factor (composition of two normalisations is normalisation by the product, factor 1 is the identity); calc_err_abs multiplies pairwise and raises ValueError exactly when lengths differ.", "quantifier": "all lists and factors", "why_tests_cant": "Algebraic laws over all lists.", "anchors": ["mcnp_analysis.py: normalise", "mcnp_analysis.py: calc_err_abs"]}
{"id": "C43", "title": "Reduction to non-zero prefix", "statement": "reduce_to_non_zero returns the longest common prefixes of values and times in which no value is zero; both have the same length, no returned value is zero, and it is idempotent; unequal lengths raise ValueError.", "quantifier": "all pairs of lists", "why_tests_cant": "All lists.", "anchors": ["fispact_analysis.py: reduce_to_non_zero"]}
{"id": "C44", "title": "Inventory filters select exactly the active / emitting nuclides", "statement": "remove_stable and the gamma, beta, alpha filters keep exactly the rows whose activity or energy is strictly positive, in order; they commute pairwise and are idempotent; is_nuc_present is True exactly when some row has that nuclide; a nuclide present after filtering was present before.", "quantifier": "every inventory table (NaN entries included) and nuclide name", "why_tests_cant": "Algebraic laws over all tables.", "anchors": ["fispact_analysis.py: remove_stable", "fispact_analysis.py: filter_emits_gamma", "fispact_analysis.py: filter_emits_beta", "fispact_analysis.py: filter_emits_alpha", "fispact_analysis.py: is_nuc_present"]}
{"id": "C45", "title": "Inventory to MCNP material preserves composition", "statement": "output_mcnp_mat gives one row per nuclide in order; the normalised fractions are atoms divided by total atoms, are non-negative and sum to 1 when all atom counts are non-negative and not all zero; the ZAID is 1000*Z + A, and A < 1000 makes (Z, A) recoverable from it.", "quantifier": "every inventory with known elements and integer mass numbers", "why_tests_cant": "Sum-to-one and injectivity over all inventories.", "anchors": ["fispact_analysis.py: output_mcnp_mat", "neut_constants.py: Z_dict"]}
{"id": "C46", "title": "Time unit names are accepted case-insensitively and resolve to one column", "statement": "check_time_units maps every capitalisation of s/seconds, d/days, h/hours/hrs, y/yrs/years to time_secs, time_days, time_hours, time_years and returns every other string unchanged; it is idempotent.", "quantifier": "every string", "why_tests_cant": "All capitalisations and all other strings.", "anchors": ["fispact_analysis.py: check_time_units"]}
{"id": "C47", "title": "Out-of-scope decision for a nuclide", "statement": "check_nuclide_oos returns False exactly when activity/mass exceeds the first level listed for the nuclide (or for 'Other' when it is not listed); the answer is monotone: less activity or more mass never turns True into False; a table with neither the nuclide nor 'Other' raises IndexError.", "quantifier": "every limits table, nuclide, activity, positive mass", "why_tests_cant": "Monotonicity over a continuum and all tables.", "anchors": ["fispact_analysis.py: check_nuclide_oos"]}
{"id": "C48", "title": "Inventory out-of-scope decision is the conjunction over active nuclides", "statement": "check_inventory_oos is True exactly when every nuclide with positive activity passes check_nuclide_oos, and get_not_oos_nuclides returns exactly the failing active nuclides in order, so that check_inventory_oos is True iff that list is empty.", "quantifier": "every inventory and limits table", "why_tests_cant": "Agreement of two code paths for every inventory, including one without active nuclides.", "anchors": ["fispact_analysis.py: check_inventory_oos", "fispact_analysis.py: get_not_oos_nuclides", "fispact_analysis.py: read_OOS"]}
{"id": "C49", "title": "First out-of-scope time step", "statement": "find_when_oos returns the number of the first time step whose inventory is out of scope with respect to the given limits file, and None exactly when there is none.", "quantifier": "every list of time steps, every limits file", "why_tests_cant": "All histories of inventories and the use of the supplied limits file.", "anchors": ["fispact_analysis.py: find_when_oos"]}
{"id": "C50", "title": "Chart of nuclides keeps every nuclide in view", "statement": "plot_nuc_chart places the value of every nuclide with A and Z within the requested ranges in its own cell (later rows of the same nuclide win) and all other cells are 0; it raises no IndexError for ranges within the known nuclides (Z up to 118, A up to 294).", "quantifier": "every inventory and range", "why_tests_cant": "Boundary nuclides and duplicate rows for all inventories.", "anchors": ["fispact_analysis.py: plot_nuc_chart"]}
{"id": "C51", "title": "Voxel count and mid points match the bounds", "statement": "For a mesh with bounds read from a file, each axis has one mid point fewer than bounds, number_voxels is the product of the numbers of intervals, and each mid point is the exact centre of its interval rounded to five decimals (at most 0.5e-5 away).", "quantifier": "every list of bounds per axis", "why_tests_cant": "All meshes.", "anchors": ["meshtal_analysis.py: meshtally.number_voxels", "meshtal_analysis.py: calc_mid_points"]}
{"id": "C52", "title": "Voxel volume", "statement": "For a mesh uniform in all three directions voxel_uniform_volume is the volume of every voxel, and for a non-uniform mesh it is the average voxel volume (total volume divided by the number of voxels).", "quantifier": "every mesh", "why_tests_cant": "All spacings; the non-uniform branch must be right for every mesh that reaches it.", "anchors": ["meshtal_analysis.py: meshtally.voxel_uniform_volume", "meshtal_analysis.py: meshtally.voxel_average_volume", "meshtal_analysis.py: check_uniform"]}
{"id": "C53", "title": "Nearest mid point is a nearest one, the first among ties", "statement": "find_nearest_mid returns an element of mids with minimal distance to the value, the first such one in case of ties; it raises ValueError exactly for an empty list; a value that is itself a mid point is returned unchanged.", "quantifier": "every list of mids, every value", "why_tests_cant": "Minimality over a continuum of values and all lists.", "anchors": ["meshtal_analysis.py: find_nearest_mid"]}
{"id": "C54", "title": "A point is looked up in the voxel that contains it", "statement": "pick_point(x, y, z, mesh) returns the values of the voxel that contains the point.", "quantifier": "every mesh and every point inside it", "why_tests_cant": "The nearest mid point is the containing voxel only for some meshes; a test on a uniform mesh cannot tell.", "anchors": ["meshtal_analysis.py: pick_point", "meshtal_analysis.py: find_nearest_mid"]}
{"id": "C55", "title": "Energy and time filters select the requested bin", "statement": "filter_energy_time(data, erg, time) returns exactly the rows whose energy / time is close to the requested one, for every requested value, and all rows when none is requested.", "quantifier": "every table, every requested energy and time (0 included)", "why_tests_cant": "The value 0 is special in the code and only one point of a continuum.", "anchors": ["meshtal_analysis.py: filter_energy_time"]}
{"id": "C56", "title": "A slice has the values and errors of its plane", "statement": "extract_slice(mesh, value, plane) returns, for each cell (i, j) of the plane nearest to value, the value and the relative error of that voxel; an unknown plane raises ValueError.", "quantifier": "every complete mesh, every plane and value", "why_tests_cant": "All meshes; the error array can be wrong while the value array is right.", "anchors": ["meshtal_analysis.py: extract_slice"]}
{"id": "C57", "title": "A line has exactly the voxels along it", "statement": "extract_line(mesh, p1, p2) for points differing in one coordinate returns exactly the values of the voxels on the line through the nearest mid points of the two fixed coordinates, in file order, and with an energy or a time only those of that bin; for p1 = p2 it agrees with pick_point.", "quantifier": "every mesh and pair of points", "why_tests_cant": "All meshes; agreement of two code paths.", "anchors": ["meshtal_analysis.py: extract_line", "meshtal_analysis.py: pick_point"]}
{"id": "C58", "title": "Error bands bracket the value", "statement": "calculate_upper_mesh_vals and calculate_lower_mesh_vals add value*(1+err) and value*(1-err): for non-negative values and errors lower <= value <= upper, their mean is the value, and other columns are unchanged.", "quantifier": "every mesh table", "why_tests_cant": "Inequalities over all values.", "anchors": ["meshtal_analysis.py: calculate_upper_mesh_vals", "meshtal_analysis.py: calculate_lower_mesh_vals"]}
{"id": "C59", "title": "Mesh addition adds voxel by voxel", "statement": "add_mesh succeeds exactly for meshes with the same bounds and column type (5-column meshes included); the result has the sum of the values voxel by voxel, is commutative in values and errors, keeps the coordinates, and never modifies its arguments.", "quantifier": "every pair of meshes", "why_tests_cant": "Commutativity and coverage of all mesh types.", "anchors": ["meshtal_analysis.py: add_mesh"]}
{"id": "C60", "title": "Mesh addition combines relative errors correctly", "statement": "The relative error of a sum of two independent voxel values is sqrt((v1 e1)^2 + (v2 e2)^2)/(v1+v2).", "quantifier": "every pair of voxel values and errors", "why_tests_cant": "A formula over a continuum; tests with equal or zero values cannot distinguish formulas.", "anchors": ["meshtal_analysis.py: add_mesh"]}
{"id": "C61", "title": "Conversion to a 3D array is a faithful relayout", "statement": "convert_to_3d_array puts the value and error of every data row at the array position of its (x, y, z) mid points and zero elsewhere; when every voxel occurs once the array determines the table and vice versa.", "quantifier": "every mesh with six columns and distinct mid points", "why_tests_cant": "All shapes and row orders.", "anchors": ["meshtal_analysis.py: convert_to_3d_array"]}
{"id": "C62", "title": "Zero voxel count", "statement": "count_zeros returns the number of voxels whose value is zero.", "quantifier": "every mesh", "why_tests_cant": "The case of no zero voxel raises instead of returning 0.", "anchors": ["meshtal_analysis.py: count_zeros"]}
{"id": "C63", "title": "Mesh tally index of a file", "statement": "find_mesh_tally_numbers maps each tally number to the last line that announces it; find_next_mesh returns the start line of the next larger tally number and -1 for the largest one.", "quantifier": "every file content, every tally number in it", "why_tests_cant": "All numbers of meshes and orders.", "anchors": ["meshtal_analysis.py: find_mesh_tally_numbers", "meshtal_analysis.py: find_next_mesh"]}
{"id": "C64", "title": "Mesh tally files with any number of meshes are read completely", "statement": "read_meshtally_file returns one mesh per mesh tally in the file, in order, each with the identifier, bounds, mid points and data rows of its own section, for any number of energy-, time- or five-column meshes.", "quantifier": "every well formed meshtal file", "why_tests_cant": "Needs files with several meshes of each type in any order.", "anchors": ["meshtal_analysis.py: read_meshtally_file", "meshtal_analysis.py: convert_to_df"]}
{"id": "C65", "title": "Selecting one mesh of a file", "statement": "read_meshtally_file(path, mesh_num=n) returns the mesh with number n whenever the file contains it.", "quantifier": "every well formed file and every n in it", "why_tests_cant": "The position of the mesh in the file matters (last one or not).", "anchors": ["meshtal_analysis.py: read_meshtally_file"]}
{"id": "C66", "title": "Uniformity test", "statement": "check_uniform is False for an empty list and for two or more bounds is True exactly when all spacings agree with the first within the numpy closeness tolerance; in particular it is True for exactly equally spaced bounds and False when some spacing differs from the first by more than the tolerance.", "quantifier": "every list of bounds", "why_tests_cant": "All lists including a single bound.", "anchors": ["meshtal_analysis.py: check_uniform"]}
{"id": "C67", "title": "FISPACT version detection", "statement": "check_fisp_version says FISP07 exactly when one of the first fifty lines contains 'FISPACT VERSION 07.0/0', isFisII is its negation, and lines after the fiftieth never matter.", "quantifier": "every list of lines", "why_tests_cant": "All positions of the banner.", "anchors": ["fispact_output_reader.py: check_fisp_version", "fispact_output_reader.py: isFisII"]}
{"id": "C68", "title": "Summary block location", "statement": "find_summary_block returns the first line equal to the phase banner and the first line containing '0 Mass', and raises ValueError exactly when either is missing.", "quantifier": "every list of lines", "why_tests_cant": "All contents including missing ends.", "anchors": ["fispact_output_reader.py: find_summary_block"]}
{"id": "C69", "title": "Time columns are consistent", "statement": "add_time_columns adds days, hours and seconds with days*24 = hours and hours*3600 = seconds for every row, keeps all other data, and uses the same length of year as the package's unit conversions.", "quantifier": "every table of times", "why_tests_cant": "All values; the year length disagrees with another module.", "anchors": ["fispact_output_reader.py: add_time_columns", "neut_constants.py: years_to_days"]}
{"id": "C70", "title": "Cumulative time in the summary table", "statement": "For a FISPACT-II summary, the times of irradiation rows are as printed, every row after a phase separator is offset by the time of the last row before that separator, the cooling flag is False before the first separator and True after, and there is one row per non-separator line.", "quantifier": "every summary block with any number of phases", "why_tests_cant": "Running offset over arbitrarily many phases and rows.", "anchors": ["fispact_output_reader.py: read_summary_data"]}
{"id": "C71", "title": "Cooling selection agrees with the cooling flag", "statement": "retrieve_cooling_data keeps exactly the rows flagged as cooling, in order; find_first_cooling_index is the index of the first such row and None iff there are none.", "quantifier": "every summary table", "why_tests_cant": "All flag patterns.", "anchors": ["fispact_output_reader.py: retrieve_cooling_data", "fispact_output_reader.py: find_first_cooling_index"]}
{"id": "C72", "title": "Element fractions sum to one", "statement": "parse_composition returns one row per line of the composition section, with atom fractions that are proportional to the atom numbers and sum to 1 when the total is non-zero; a non-numeric atom column raises ValueError.", "quantifier": "every section content, every float parser", "why_tests_cant": "All sections.", "anchors": ["fispact_output_reader.py: parse_composition"]}
{"id": "C73", "title": "Gamma spectrum has 24 groups", "statement": "parse_spectra returns exactly 24 values, those in columns 130-141 of the 24 lines starting seven lines after the first spectrum header, or raises ValueError (header missing, file too short, bad number).", "quantifier": "every list of lines", "why_tests_cant": "All truncations of a file.", "anchors": ["fispact_output_reader.py: parse_spectra"]}
{"id": "C74", "title": "Inventory parsing", "statement": "parse_inventory returns one row per line between the fourth line and the total line; the nuclide name equals element symbol followed by the mass number label with blanks removed, and any non-numeric field raises ValueError with no partial result.", "quantifier": "every list of lines, every float parser (names: lines whose only white space is blanks)", "why_tests_cant": "All inventories.", "anchors": ["fispact_output_reader.py: parse_inventory"]}
{"id": "C75", "title": "Every time step of the file is read", "statement": "read_fis_out returns one time step record per '1 * * *' marker except the first, numbered 2, 3, ... in order, each parsed only from the lines from its own marker up to the next marker.", "quantifier": "every list of lines", "why_tests_cant": "All numbers of time steps.", "anchors": ["fispact_output_reader.py: read_fis_out", "fispact_output_reader.py: read_time_step"]}
{"id": "C76", "title": "Parameter line parsing", "statement": "read_parameter returns the number after the first '=' of the first line containing the label, raises ValueError exactly when there is no such line, no '=', or the first word after '=' is not a number.", "quantifier": "every list of lines, label and float parser", "why_tests_cant": "All line shapes.", "anchors": ["fispact_output_reader.py: read_parameter"]}
{"id": "C77", "title": "Mass line parsing", "statement": "read_mass returns the number of the first line of the form '0 Mass of material input = <number> kg.' and 0.0 when there is none.", "quantifier": "every list of lines", "why_tests_cant": "All layouts the pattern allows.", "anchors": ["fispact_output_reader.py: read_mass"]}
{"id": "C78", "title": "Block split partitions the input", "statement": "split_blocs returns cell, surface and data blocks whose concatenation is the whole file; the cell block has no blank line, the surface and data blocks start with the first and second blank lines; with fewer than two blank lines it raises KeyError.", "quantifier": "every list of lines", "why_tests_cant": "All numbers and positions of blank lines.", "anchors": ["mcnp_input_reader.py: split_blocs", "mcnp_input_reader.py: find_blank_lines"]}
{"id": "C79", "title": "Long line report", "statement": "long_line_index returns None when no line qualifies and otherwise exactly the increasing indices of non-comment lines longer than 80 characters.", "quantifier": "every list of lines", "why_tests_cant": "The boundary length of exactly 80 characters.", "anchors": ["mcnp_input_reader.py: long_line_index"]}
{"id": "C80", "title": "Comment and card helpers", "statement": "remove_inline_comment returns the part before the first '$' and never contains '$'; a line without '$' is unchanged; get_full_line_comments maps exactly the indices of lines starting with 'c ' (any case) to those lines.", "quantifier": "every line and list of lines", "why_tests_cant": "All strings.", "anchors": ["mcnp_input_reader.py: remove_inline_comment", "mcnp_input_reader.py: has_inline_comment", "mcnp_input_reader.py: get_inline_comment", "mcnp_input_reader.py: get_full_line_comments"]}
{"id": "C81", "title": "Card extraction follows the continuation rule", "statement": "get_card_lines returns the lower-cased, comment-stripped first line of the card (name followed by blank or colon, any case) and its continuation lines up to the next line that is neither a continuation, a comment, nor empty; it returns [] exactly when the card is absent.", "quantifier": "every list of lines and card name", "why_tests_cant": "All interleavings of comments and continuations.", "anchors": ["mcnp_input_reader.py: get_card_lines", "mcnp_input_reader.py: is_continue_line"]}
{"id": "C82", "title": "Mode card", "statement": "read_mode_card returns None iff no mode card is present, otherwise the particle designators of the card in order; is_mode_valid accepts exactly lists of known designators, case-insensitively.", "quantifier": "every list of lines", "why_tests_cant": "All cards with continuation lines.", "anchors": ["mcnp_input_reader.py: read_mode_card", "mcnp_input_reader.py: is_mode_valid"]}
{"id": "C83", "title": "Material cards are read completely", "statement": "For a material card made of identifier/fraction pairs spread over any number of continuation lines with comments, read_material_lines returns a composition mapping every identifier to its fraction (last one wins), with num_nuclides the number of distinct identifiers; an odd number of entries raises IndexError, a fraction that is not a number raises ValueError, an unknown keyword raises ValueError.", "quantifier": "every material card layout, every float parser", "why_tests_cant": "All wraps, comments and lengths.", "anchors": ["mcnp_input_reader.py: read_material_lines", "mcnp_input_reader.py: process_material_line", "mcnp_input_reader.py: check_valid_mat_keyword", "mcnp_input_reader.py: process_material_keyword"]}
{"id": "C84", "title": "A material that is not defined is reported", "statement": "read_material_lines(n, lines) for a number n that has no material card raises an error or is otherwise distinguishable from a defined material.", "quantifier": "every list of lines and number", "why_tests_cant": "Absence over all files.", "anchors": ["mcnp_input_reader.py: read_material_lines"]}
{"id": "C85", "title": "Cell cards spread over several lines are read completely", "statement": "process_cell_block gives for every cell the surfaces named in its geometry, on the first and on all continuation lines, and its importances.", "quantifier": "every cell block layout", "why_tests_cant": "All wraps of a geometry over lines.", "anchors": ["mcnp_input_reader.py: process_cell_block", "mcnp_input_reader.py: process_geom"]}
{"id": "C86", "title": "One-line cell cards", "statement": "For a block of one-line cell cards 'number material [density] surfaces...', process_cell_block returns a dictionary with the last definition of every cell number, with material, density (None for void) and the unsigned surface numbers in order.", "quantifier": "every list of such cards, every float parser", "why_tests_cant": "All lists of cards.", "anchors": ["mcnp_input_reader.py: process_cell_block", "mcnp_input_reader.py: process_geom", "mcnp_input_reader.py: process_imp"]}
{"id": "C87", "title": "Cell queries agree with the dictionary", "statement": "get_cell / check_cell_exists / cells_with_mat / cells_with_surface return exactly the stored cell, its presence, and all cells with that material / surface in insertion order; check_cell_mat_exists is False for void cells unless a material 0 exists.", "quantifier": "every cell dictionary", "why_tests_cant": "All dictionaries.", "anchors": ["mcnp_input_reader.py: get_cell", "mcnp_input_reader.py: cells_with_mat", "mcnp_input_reader.py: cells_with_surface", "mcnp_input_reader.py: check_cell_exists", "mcnp_input_reader.py: check_cell_mat_exists", "mcnp_input_reader.py: get_mat"]}
{"id": "C88", "title": "Surface cards", "statement": "process_surface_block returns one surface per card (last definition of a number wins) with number, type, parameters from the card and its continuation lines in order, transform iff the second entry is a number; an unknown type raises ValueError; blank and comment lines have no influence.", "quantifier": "every surface block without inline comments", "why_tests_cant": "All wraps, comments and orders.", "anchors": ["mcnp_input_reader.py: process_surface_block", "mcnp_input_reader.py: process_surface_line", "mcnp_input_reader.py: is_surface_type_valid", "mcnp_input_reader.py: check_surf_transform"]}
{"id": "C89", "title": "Inline comments never become surface parameters", "statement": "Text after '$' on a surface card does not appear among the surface parameters.", "quantifier": "every surface card", "why_tests_cant": "Needs comments of every shape.", "anchors": ["mcnp_input_reader.py: process_surface_line", "mcnp_input_reader.py: process_surface_block"]}
{"id": "C90", "title": "Tally cards and their modifiers", "statement": "read_tally_lines returns the tally's card text joined over continuation lines and reports energy bins, time bins, multiplier, segment divisor and comment cards exactly when a line starting with e<n>, t<n>, fm<n>, sd<n>, fc<n> followed by a blank is present, in the attributes the tally object documents.", "quantifier": "every list of lines and tally number", "why_tests_cant": "All card combinations.", "anchors": ["mcnp_input_reader.py: read_tally_lines", "mcnp_input_reader.py: process_tally_line", "mcnp_input_reader.py: is_card_present"]}
{"id": "C91", "title": "Number listing and number validity", "statement": "get_material_numbers and get_tally_numbers list the number of every card starting with m<digit> / f<digit> in order; is_valid_* accept exactly the numbers up to 99999999 and is_number_of_tallies_valid up to 9999.", "quantifier": "every list of lines, every number", "why_tests_cant": "All cards.", "anchors": ["mcnp_input_reader.py: get_material_numbers", "mcnp_input_reader.py: get_tally_numbers", "mcnp_input_reader.py: is_valid_number"]}
{"id": "C92", "title": "vised_compatible is safe to run again", "statement": "Running vised_compatible twice on a file gives the same file as running it once.", "quantifier": "every file content", "why_tests_cant": "Idempotence over all contents.", "anchors": ["mcnp_input_reader.py: vised_compatible"]}
{"id": "C93", "title": "Tally numbers found in the output", "statement": "get_tally_nums returns the set of all tally numbers that have a '1tally' result header in the standard layout (number right-justified in columns 7-15).", "quantifier": "every output file, every tally number up to eight digits", "why_tests_cant": "The number of digits decides; tests use short numbers.", "anchors": ["mcnp_output_reader.py: get_tally_nums"]}
{"id": "C94", "title": "Rendezvous bookkeeping", "statement": "get_rendevous_index returns the increasing indices of all rendezvous lines, count_rendevous their number, find_last_rendevous the second last index and None iff there are fewer than two; find_term_line the first termination line or None.", "quantifier": "every list of lines", "why_tests_cant": "All contents.", "anchors": ["mcnp_output_reader.py: get_rendevous_index", "mcnp_output_reader.py: count_rendevous", "mcnp_output_reader.py: find_last_rendevous", "mcnp_output_reader.py: find_term_line"]}
{"id": "C95", "title": "Tally results come from the final result set", "statement": "When the output has a termination line, read_tally locates the tally header after it, so results printed before it are never used: the result only depends on the lines from the termination line on.", "quantifier": "every output file and tally number", "why_tests_cant": "Arbitrary earlier result dumps.", "anchors": ["mcnp_output_reader.py: read_tally", "mcnp_output_reader.py: find_term_line"]}
{"id": "C96", "title": "Comments, warnings and fatal errors", "statement": "read_comments_warnings returns exactly the lines starting with '  comment.' / '  warning.' in order, and check_fatal is True exactly when some line contains 'fatal' in any capitalisation.", "quantifier": "every list of lines", "why_tests_cant": "All contents.", "anchors": ["mcnp_output_reader.py: read_comments_warnings", "mcnp_output_reader.py: check_fatal"]}
{"id": "C97", "title": "Time-binned tally blocks", "statement": "process_time_bin_only returns as many results as errors when every data line has an even number of entries, pairs entry 2k with entry 2k+1 of each line, and lists the time labels in order.", "quantifier": "every list of lines, every float parser", "why_tests_cant": "All block shapes.", "anchors": ["mcnp_output_reader.py: process_time_bin_only"]}
{"id": "C98", "title": "Energy and time bin labels", "statement": "eng_time_get_time_bins returns the distinct time labels in order of first occurrence; eng_time_get_eng_bins returns the first words of the lines between the first 'energy' line and the next 'total' line followed by 'total'.", "quantifier": "every list of lines", "why_tests_cant": "All repetitions over cells and surfaces.", "anchors": ["mcnp_output_reader.py: eng_time_get_time_bins", "mcnp_output_reader.py: eng_time_get_eng_bins"]}
{"id": "C99", "title": "Energy binned cell and surface tallies", "statement": "For a tally with only energy bins the reader returns, for every cell (surface) number, one row (energy, result, error) per data line of its own block in order and the total of its own block; blocks of different cells never mix, the lines behind the heading of a cell or surface 0 are not read, and cell and surface readers agree on corresponding input.", "quantifier": "every list of lines, every float parser", "why_tests_cant": "All numbers of cells and rows.", "anchors": ["mcnp_output_reader.py: read_energy_bin_only_cell_tally", "mcnp_output_reader.py: process_energy_binned_surface_tally"]}
{"id": "C100", "title": "Cell and volume list of a tally", "statement": "get_cell_data collects all cell numbers of all 'cell:' lines and all entries of the other lines up to the first line consisting of one blank, in order, and raises IndexError exactly when there is no such line.", "quantifier": "every list of lines and start index", "why_tests_cant": "All list lengths and wraps.", "anchors": ["mcnp_output_reader.py: get_cell_data"]}
{"id": "C101", "title": "Energy and time binned tally blocks are kept per cell", "statement": "For a tally with energy and time bins over several cells the result stored for a cell is built from the lines of that cell only.", "quantifier": "every such tally output", "why_tests_cant": "Needs tallies with several cells; one-cell tests cannot see mixing.", "anchors": ["mcnp_output_reader.py: read_type_cell", "mcnp_output_reader.py: process_e_t_userbin"]}
{"id": "C102", "title": "Print table index", "statement": "get_table_dict maps every table identifier of at most three characters other than 160 and 161 to the last line announcing it and contains nothing else.", "quantifier": "every list of lines", "why_tests_cant": "All contents.", "anchors": ["mcnp_output_reader.py: get_table_dict"]}
{"id": "C103", "title": "Point detector position and result", "statement": "For a point detector with a single result, read_type_5 returns the three fixed-width coordinates after '=' and the last two words of the result line, and raises ValueError when any of them is not a number.", "quantifier": "every list of lines, every float parser", "why_tests_cant": "All widths and malformed lines.", "anchors": ["mcnp_output_reader.py: read_type_5"]}
{"id": "C104", "title": "Pulse height tally reports the cell that was tallied", "statement": "read_type_8 returns the cell number present in the tally output.", "quantifier": "every pulse height tally output", "why_tests_cant": "Tests use the one cell number the code expects.", "anchors": ["mcnp_output_reader.py: read_type_8"]}
{"id": "C105", "title": "Run date and version", "statement": "read_run_date returns the last two words of the first line starting with '1mcnp' among the first hundred lines; read_version returns the text between the first and second '=' of the first line when it is a version line and None otherwise, never raising on any input.", "quantifier": "every list of lines", "why_tests_cant": "All contents.", "anchors": ["mcnp_output_reader.py: read_run_date", "mcnp_output_reader.py: read_version"]}
{"id": "C106", "title": "Configuration reading", "statement": "read_config returns an object whose attributes are the values given in the file for the ten known keys and the documented defaults otherwise; an unknown key raises ValueError; a missing file raises FileNotFoundError.", "quantifier": "every key/value mapping", "why_tests_cant": "All subsets of keys.", "anchors": ["r2s_cell.py: read_config", "r2s_cell.py: usr_inputs"]}
{"id": "C107", "title": "Tally cell selection", "statement": "get_cells_mcnp returns the concatenated cells (as integers) of exactly the type-4 tallies of the requested particle, restricted to the requested tally numbers if given, in file order, together with those tallies.", "quantifier": "every list of tallies, every selection", "why_tests_cant": "All combinations.", "anchors": ["r2s_cell.py: get_cells_mcnp"]}
{"id": "C108", "title": "Cell table for the activation", "statement": "get_cell_data returns one row per requested cell in order with its number, material and density, and raises ValueError exactly when a requested cell does not exist.", "quantifier": "every cell dictionary and list of cell numbers", "why_tests_cant": "All lists.", "anchors": ["r2s_cell.py: get_cell_data"]}
{"id": "C109", "title": "Activation set-up writes only inside the cell folder", "statement": "fispact_setup(path, ...) changes no file outside the folder path (nor its parents), leaves collapse.i and array.i with the fixed contents, copies the FILES file unchanged, and reports success only if all files were written; when the FILES file is missing it raises FileNotFoundError.", "quantifier": "every file system state and path", "why_tests_cant": "All prior states and failures.", "anchors": ["r2s_cell.py: fispact_setup", "r2s_cell.py: write_collapse", "r2s_cell.py: write_array", "r2s_cell.py: copy_files_file", "r2s_cell.py: check_files_file"]}
{"id": "C110", "title": "Requested tallies are honoured", "statement": "The cells processed by main are those of the tallies requested in the configuration file.", "quantifier": "every configuration and output", "why_tests_cant": "Requires configurations that select a subset.", "anchors": ["r2s_cell.py: read_data_from_mcnp_output", "r2s_cell.py: get_cells_mcnp"]}
{"id": "C111", "title": "A fatal MCNP output is never used", "statement": "read_data_from_mcnp_output raises whenever the MCNP output file contains a fatal error message; a missing configuration entry or file raises and no activation folder is created.", "quantifier": "every output file content", "why_tests_cant": "All contents.", "anchors": ["r2s_cell.py: read_data_from_mcnp_output", "r2s_cell.py: main"]}
{"id": "C112", "title": "Signed point-plane distance", "statement": "dist_between_point_plane(n, d, p) equals (d - n.p)/|n| for every plane with non-zero normal: its absolute value is the minimal Euclidean distance from p to a point of the plane, it is 0 iff p is on the plane, and it is invariant under scaling (n, d) by a positive factor; the zero normal raises ValueError.", "quantifier": "every normal, offset and point in R^3", "why_tests_cant": "Minimality over the continuum of points of a plane.", "anchors": ["geom_utils.py: dist_between_point_plane"]}
{"id": "C113", "title": "Segment-plane intersection point", "statement": "line_segment_plane_intersection returns a point of the segment that lies on the plane when the end points are strictly on different sides, and raises ValueError otherwise.", "quantifier": "every segment and plane", "why_tests_cant": "The returned point must satisfy both equations for every input; one sample with d = 0 passes.", "anchors": ["geom_utils.py: line_segment_plane_intersection"]}
{"id": "C114", "title": "Distance between planes", "statement": "dist_between_planes returns the signed distance between parallel planes (0 for intersecting ones), does not depend on how a plane is written and does not modify its arguments.", "quantifier": "all pairs of planes", "why_tests_cant": "All parallel pairs, including oppositely oriented normals and normals with a zero x component.", "anchors": ["geom_utils.py: dist_between_planes", "geom_utils.py: check_parallel_planes", "geom_utils.py: check_plane_exists"]}
{"id": "C115", "title": "Angle between planes", "statement": "angle_between_planes lies in [0, pi/2], is symmetric, is unchanged by scaling or reversing a normal, equals pi/2 iff the normals are orthogonal and 0 iff they are parallel (in which case a ValueError is acceptable).", "quantifier": "all pairs of non-zero normals", "why_tests_cant": "A continuum of normals.", "anchors": ["geom_utils.py: angle_between_planes"]}
{"id": "C116", "title": "Plane-sphere intersection circle", "statement": "plane_sphere_intersect returns a circle all of whose points are on both the plane and the sphere when the plane meets the sphere, and raises ValueError when it does not.", "quantifier": "all planes and spheres", "why_tests_cant": "Both sides of the sphere and all radii.", "anchors": ["geom_utils.py: plane_sphere_intersect"]}
{"id": "C117", "title": "Plane-plane intersection line", "statement": "plane_plane_intersect returns a point and a unit direction such that every point of the line is on both planes and the point has the requested z; it raises when the planes are parallel.", "quantifier": "all pairs of planes and every z", "why_tests_cant": "Every point of a line for every pair of planes.", "anchors": ["geom_utils.py: plane_plane_intersect"]}
{"id": "C118", "title": "Rotation about a point", "statement": "rotate_x, rotate_y, rotate_z rotate points about the axis through o: distances between points are preserved, the angle 0 (with origin 0) is the identity, successive rotations about the same axis add their angles, a full turn is the identity and the point o itself stays fixed.", "quantifier": "all point lists, angles and origins", "why_tests_cant": "Group laws over a continuum; fixing o fails only for o other than 0.", "anchors": ["geom_utils.py: rotate_x", "geom_utils.py: rotate_y", "geom_utils.py: rotate_z"]}
{"id": "C119", "title": "Translation is a group action", "statement": "translate preserves the number of points and differences between points, translation by 0 is the identity and by a then b is by a+b.", "quantifier": "all point lists and vectors", "why_tests_cant": "All vectors.", "anchors": ["geom_utils.py: translate"]}
{"id": "C120", "title": "Volumes and areas of solids", "statement": "volume_sphere is the Lebesgue volume of the ball, area_circle the area of the disc, volume_cyl the volume of the cylinder, volume_cone the volume of the cone; perim_circle and area_sphere are the derivatives of area_circle and volume_sphere with respect to the radius; negative inputs raise ValueError.", "quantifier": "all real radii and heights", "why_tests_cant": "Equality with a measure for every radius.", "anchors": ["geom_utils.py: volume_sphere", "geom_utils.py: area_circle", "geom_utils.py: perim_circle", "geom_utils.py: area_sphere", "geom_utils.py: volume_cyl", "geom_utils.py: volume_cone", "geom_utils.py: check_positive"]}
{"id": "C121", "title": "Shells", "statement": "volume_spherical_shell, area_cyl_shell and volume_cyl_shell are symmetric in the two radii, non-negative, zero iff the radii agree (and height non-zero), additive over nested shells and raise ValueError iff an input is negative.", "quantifier": "all real radii and heights", "why_tests_cant": "Continuum of values.", "anchors": ["geom_utils.py: volume_spherical_shell", "geom_utils.py: area_cyl_shell", "geom_utils.py: volume_cyl_shell"]}
{"id": "C122", "title": "Surface areas of cylinder and cone", "statement": "area_cyl is the area of two discs plus the unrolled side, area_cone_surf is pi r times the slant height, both monotone in each argument and zero-height limits agree with discs.", "quantifier": "all non-negative radii and heights", "why_tests_cant": "Continuum of values.", "anchors": ["geom_utils.py: area_cyl", "geom_utils.py: area_cone_surf"]}
{"id": "C123", "title": "Hypotenuse", "statement": "pythag_h(a, b) is the Euclidean length sqrt(a^2+b^2) for all leg lengths.", "quantifier": "all pairs of lengths (zero included)", "why_tests_cant": "The zero legs are single points of a continuum.", "anchors": ["geom_utils.py: pythag_h"]}
{"id": "C124", "title": "Sense of a point with respect to surfaces", "statement": "find_sense_plane/sphere/gq return -1, 1 or 0 according to the sign of the surface equation; for a sphere 1 means strictly inside, -1 strictly outside, 0 on it; a general quadric with the coefficients of a sphere gives the same sense as find_sense_sphere, and with the coefficients of a plane the same as find_sense_plane; the sense of a plane is reversed by negating (n, d).", "quantifier": "all points and surfaces", "why_tests_cant": "Agreement of different code paths over a continuum.", "anchors": ["geom_utils.py: find_sense_plane", "geom_utils.py: find_sense_sphere", "geom_utils.py: find_sense_gq", "geom_utils.py: evaluate_plane_eq", "geom_utils.py: evaluate_sphere_eq"]}
{"id": "C125", "title": "Ray-sphere intersection", "statement": "For a unit direction and a ray whose line meets the sphere, both distances returned by sphere_ray_intersect lead (via project_ray) to points on the sphere, the first distance is not smaller than the second, and these are the only distances that do.", "quantifier": "all rays and spheres", "why_tests_cant": "A continuum of rays; completeness of the solution set.", "anchors": ["geom_utils.py: sphere_ray_intersect", "geom_utils.py: project_ray"]}
{"id": "C126", "title": "Coordinate conversions round trip", "statement": "Converting Cartesian coordinates to cylindrical (spherical) ones and back returns the original point, for every point off the axis; cylindrical to spherical and back returns the original as well.", "quantifier": "every point", "why_tests_cant": "All octants; points with x = 0 are a null set that sampling misses.", "anchors": ["geom_utils.py: cartesian_to_cylindrical", "geom_utils.py: cylindrical_to_cartesian", "geom_utils.py: cartesian_to_spherical", "geom_utils.py: spherical_to_cartesian", "geom_utils.py: cylindrical_to_spherical", "geom_utils.py: spherical_to_cylindrical"]}
{"id": "C127", "title": "Line through two points", "statement": "coefficients_of_line_from_points returns m, c such that both points satisfy y = m x + c whenever the points have different x.", "quantifier": "all pairs of points", "why_tests_cant": "Continuum.", "anchors": ["geom_utils.py: coefficients_of_line_from_points"]}
{"id": "C128", "title": "Distances and mid points of pairs of points", "statement": "dist_bet_points is a metric (zero iff equal, symmetric, triangle inequality), and midpoint_bet_points is at half that distance from both points and symmetric.", "quantifier": "all points", "why_tests_cant": "Metric laws over a continuum.", "anchors": ["geom_utils.py: dist_bet_points", "geom_utils.py: midpoint_bet_points"]}
{"id": "C129", "title": "Material output for inventories read from a FISPACT output", "statement": "output_mcnp_mat succeeds on every inventory produced by the FISPACT output reader whose elements are known and whose atoms add up to a non-zero total.", "quantifier": "all inventories produced by the reader", "why_tests_cant": "The unit test builds the frame by hand with an integer A column; whether reader and writer fit together for every inventory is a statement over all reader outputs.", "anchors": ["fispact_analysis.py: output_mcnp_mat", "fispact_output_reader.py: parse_inventory"]}
{"id": "C130", "title": "Library suffix in the material output", "statement": "output_mcnp_mat uses the requested library suffix in the material lines: different suffixes give different output.", "quantifier": "all inventories and suffixes", "why_tests_cant": "A fixed expected output is consistent with the argument being ignored.", "anchors": ["fispact_analysis.py: output_mcnp_mat"]}
{"id": "C131", "title": "Nuclide time series", "statement": "The series drawn by plot_nuc_cont for a nuclide has exactly one value per time step: the value of the first row of that nuclide, or 0 if the nuclide is absent.", "quantifier": "all lists of inventories, all nuclides", "why_tests_cant": "Depends on presence patterns over arbitrarily many steps.", "anchors": ["fispact_analysis.py: plot_nuc_cont"]}
{"id": "C132", "title": "FISPACT 07 summaries can be read", "statement": "For a FISPACT 07 output file, read_summary_data returns one row per line of the summary block and read_fis_out can read the file.", "quantifier": "every list of lines with the FISPACT 07 banner", "why_tests_cant": "No test reads a whole FISPACT 07 file; the failure is a type error in a late stage for every such file.", "anchors": ["fispact_output_reader.py: read_summary_data", "fispact_output_reader.py: add_time_columns"]}
{"id": "C133", "title": "Dominant nuclide table", "statement": "parse_dominant returns one row per line of the upper half and per line of the lower half (which ends at the first line starting with '1'), each value from its columns, nuclide names without blanks; the halves have equal length; bad input raises ValueError.", "quantifier": "every list of lines, every float parser", "why_tests_cant": "All sections and all bad lines.", "anchors": ["fispact_output_reader.py: parse_dominant"]}
{"id": "C134", "title": "Time step fields", "statement": "A time step read by read_time_step carries number i+1, its values are the numbers in fixed columns of the lines found by their labels, the number of fissions stays text exactly when it has no 'E', and the appm, dominant, composition and spectrum parts are read exactly when the total activity is positive.", "quantifier": "every list of lines, step index and float parser", "why_tests_cant": "All step contents, including those below 1E-100.", "anchors": ["fispact_output_reader.py: read_time_step"]}
{"id": "C135", "title": "Whole FISPACT output files", "statement": "read_fis_out raises FileNotFoundError for a missing path and ValueError for a directory, never changes the file system, and otherwise its result depends only on the lines: version and flag agree, the cooling index is the first cooling row of the table, grams are 1000 times kilograms.", "quantifier": "every path, file system and file content", "why_tests_cant": "All files.", "anchors": ["fispact_output_reader.py: read_fis_out"]}
{"id": "C136", "title": "Comment lines inside a card have no influence", "statement": "Inserting a full-line comment (c or C in the first column followed by a blank or the end of the line) between the lines of a card does not change what get_card_lines returns.", "quantifier": "every card, every position, every comment line", "why_tests_cant": "All positions and comment texts, including the empty one.", "anchors": ["mcnp_input_reader.py: get_card_lines", "mcnp_input_reader.py: is_continue_line"]}
{"id": "C137", "title": "Thermal scattering table of an xsdir file", "statement": "After read_xsdir the thermal table maps an identifier to the other fields of the last line with that identifier behind the first line starting with thermal_scattering_data or sab (comment and header lines excluded, at least two fields), contains nothing else, and is empty without such a header.", "quantifier": "every file content", "why_tests_cant": "All contents and repetitions of identifiers.", "anchors": ["xsdir_reader.py: XSDir._process_thermal", "xsdir_reader.py: read_xsdir"]}
{"id": "C138", "title": "Surfaces of a type 1 tally are listed in the order of their results", "statement": "For a type 1 tally over several surfaces, entry k of the surface list is the surface whose value is entry k of the result list.", "quantifier": "all files and all orders in which Python may list a set of strings", "why_tests_cant": "The order of a set of strings changes from run to run with the hash seed, so a test sees one order at a time.", "anchors": ["mcnp_output_reader.py: read_type_surface"]}
{"id": "C139", "title": "Point detectors with user bins can be read", "statement": "read_type_5 returns a result for a point detector with user bins, energy bins and time bins in the standard layout.", "quantifier": "all result sections of user bins", "why_tests_cant": "A failing sample could be a malformed sample; that every such file fails is a statement about all of them.", "anchors": ["mcnp_output_reader.py: read_type_5"]}
{"id": "C140", "title": "General data of a point detector", "statement": "The six counts of lost scores are the last words of the six lines behind the first line containing 'score misses'; the average per history is the twelve characters behind '= ' on the first line containing ' average tally per history', the largest score is what follows the last '=' there, and its history is what follows the last '=' of the next line.", "quantifier": "all files that are read without error", "why_tests_cant": "Tests compare one file; they cannot exclude that for other layouts numbers are taken from other lines.", "anchors": ["mcnp_output_reader.py: read_type_5"]}
{"id": "C141", "title": "Energy and time bins are arranged by row", "statement": "process_e_t_userbin applied to blocks with the same number of rows returns a matrix whose row i is the concatenation of the values in row i of all blocks, the same for the errors, and the sorted distinct times and energies; blocks with different numbers of rows and texts without times raise ValueError.", "quantifier": "all sequences of blocks with any numbers of rows and columns", "why_tests_cant": "The shape is a parameter: tests use one or two shapes.", "anchors": ["mcnp_output_reader.py: process_e_t_userbin"]}
{"id": "C142", "title": "Single values of surfaces follow the order of the file", "statement": "For a type 2 tally over at least two surfaces with single values, result k and error k are the first two entries of the line behind the k-th surface heading.", "quantifier": "all numbers of surfaces and all lines between them", "why_tests_cant": "The number of surfaces and of lines between them is unbounded.", "anchors": ["mcnp_output_reader.py: read_type_surface"]}
{"id": "C143", "title": "Single values of cells follow the order of the cells", "statement": "For a type 4 or 6 tally with single values there is one result and one error for each cell, in the order of the cell list, taken from the line behind the first line containing the cell number between blanks.", "quantifier": "all lists of cells and all files", "why_tests_cant": "A dropped entry shifts all later ones; tests only see the files they contain.", "anchors": ["mcnp_output_reader.py: read_type_cell"]}
{"id": "C144", "title": "FISPACT log check", "statement": "check_fispact_errors raises or returns a non-zero value whenever the log file reports a fatal error, returns 0 otherwise, and raises FileNotFoundError if there is no log file.", "quantifier": "every log file", "why_tests_cant": "A test with a clean log passes whatever the function does.", "anchors": ["r2s_cell.py: check_fispact_errors"]}
{"id": "C145", "title": "Cells and materials for the activation", "statement": "read_data_from_mcnp_input returns the table of the requested cells and exactly one material per distinct material number of that table, each as defined in the data block of the input file; it changes no file.", "quantifier": "every input file, every list of cells", "why_tests_cant": "All cell lists and shared materials.", "anchors": ["r2s_cell.py: read_data_from_mcnp_input"]}
{"id": "C146", "title": "Spectrum at a time", "statement": "time_slice plots, for every energy, the normalised result in the time bin nearest to the requested time (the first such bin), and plots nothing else.", "quantifier": "every target time, energy and time arrays, result matrix and factor", "why_tests_cant": "Ties between bins and all shapes of the arrays.", "anchors": ["mcnp_analysis.py: time_slice"]}
{"id": "C147", "title": "Time distribution at energies", "statement": "energy_slice plots one curve per target energy, with the normalised results of the nearest energy against the times in microseconds, and, if wanted, the normalised sum over all energies; with one result more than times per row it succeeds.", "quantifier": "every list of targets, arrays, matrix, factor and limits", "why_tests_cant": "All shapes and all target lists.", "anchors": ["mcnp_analysis.py: energy_slice"]}
{"id": "C148", "title": "Time axis shows the peak", "statement": "The automatic time limits of energy_slice contain the time of the peak of every plotted target; limits given by the caller are used as they are.", "quantifier": "every input with increasing times", "why_tests_cant": "The window is derived from a median; counterexamples need particular peaks.", "anchors": ["mcnp_analysis.py: energy_slice"]}
{"id": "C149", "title": "Flux axis shows all curves", "statement": "With non-negative results every point of every curve of energy_slice, the total included, is not above the upper axis limit.", "quantifier": "every non-negative matrix and factor", "why_tests_cant": "The limit is a single value; curves can exceed it anywhere.", "anchors": ["mcnp_analysis.py: energy_slice"]}
{"id": "C150", "title": "Energy-time heat map", "statement": "plot_ET_heatmap shows, between consecutive energies and consecutive times, the logarithm of the normalised result of that bin, and leaves bins that are not positive blank; it accepts a matrix with one column per time.", "quantifier": "every matrix of matching shape", "why_tests_cant": "Slicing errors depend on the shape of the arrays.", "anchors": ["mcnp_analysis.py: plot_ET_heatmap"]}
{"id": "C151", "title": "Spectra per unit energy", "statement": "plot_spectra plots for every object of every tally the results divided by the energy bin widths, for all tally types with energy bins.", "quantifier": "every list of tallies", "why_tests_cant": "Each tally type takes another branch with another data shape.", "anchors": ["mcnp_analysis.py: plot_spectra"]}
{"id": "C152", "title": "Error bars of spectra", "statement": "With err=True plot_spectra draws for a bin an error bar in the middle of the bin, at the plotted value, whose half length is that value times the relative error of the bin.", "quantifier": "every tally with errors", "why_tests_cant": "A shift by one bin is invisible for smooth errors.", "anchors": ["mcnp_analysis.py: plot_spectra"]}
{"id": "C153", "title": "Lower energy limit of spectra", "statement": "The automatic lower limit of the energy axis of plot_spectra hides only bins without results; a limit given by the caller is used.", "quantifier": "every list of tallies", "why_tests_cant": "It depends on the position of the first result in every curve.", "anchors": ["mcnp_analysis.py: plot_spectra"]}
{"id": "C154", "title": "Ratio of spectra", "statement": "plot_spectra_ratio plots for two tallies with the same energy bins the ratio of their results bin by bin.", "quantifier": "every two tallies with equal energy bins and non-zero second spectrum", "why_tests_cant": "The shape of the result differs between tally types.", "anchors": ["mcnp_analysis.py: plot_spectra_ratio"]}
{"id": "C155", "title": "Raw spectra and comparison of runs", "statement": "plot_raw_spectra plots the results of every object of every tally unchanged against the energies; plot_run_comp plots value n at position n with its error and refuses lists of different lengths.", "quantifier": "every list of tallies, every pair of lists", "why_tests_cant": "All lengths.", "anchors": ["mcnp_analysis.py: plot_raw_spectra", "mcnp_analysis.py: plot_run_comp"]}
{"id": "C156", "title": "Physical constants", "statement": "The elementary charge and the masses of proton, neutron and electron agree with the CODATA values within one part in a million, in the units of the documentation.", "quantifier": "all four constants, in every ordered field", "why_tests_cant": "A test repeats the literal of the code.", "anchors": ["neut_constants.py: get_e", "neut_constants.py: get_p_mass", "neut_constants.py: get_n_mass", "neut_constants.py: get_e_mass"]}
{"id": "C157", "title": "Unit conversions have the right size", "statement": "Every conversion gives the value in the documented unit, exactly where the unit is defined exactly and within one part in a thousand otherwise.", "quantifier": "every positive value", "why_tests_cant": "Round trips pass even if both factors are wrong.", "anchors": ["neut_constants.py: bq_to_curie", "neut_constants.py: curie_to_bq", "neut_constants.py: shake_to_ms", "neut_constants.py: eV_to_joule", "neut_constants.py: eV_to_wavelength_photon", "neut_constants.py: wavelength_to_meV_neutron", "neut_constants.py: second_to_year"]}
{"id": "C158", "title": "plot_summary draws every value of the chosen column against its time", "statement": "For a summary table with the chosen column and time column, plot_summary plots each value of the column (of the cooling phase only when cooling=True) against its time, dose rates in microSv/h and the other columns unchanged, with the label of the column, a logarithmic time axis exactly when a time exceeds 10, and the requested vertical and horizontal lines; an argument that is no table, an unknown column or an unknown time unit raises ValueError.", "quantifier": "all tables, columns, time units, lists of lines and both values of cooling", "why_tests_cant": "Tests call the function with one table and no zeros or lines and never look at the drawn data; where zeros occur in the column is unbounded.", "anchors": ["fispact_analysis.py: plot_summary"]}
{"id": "C159", "title": "plot_spectra draws the 24-group gamma spectrum", "statement": "plot_spectra draws exactly the 24 values of the gamma spectrum against the 24 FISPACT group bounds, with an upper limit of one and a half times the largest value so that no non-negative value is cut off; spectra of any other length raise ValueError.", "quantifier": "all lists of numbers", "why_tests_cant": "Tests only call the function on one spectrum; the limit must hold for every vector of values.", "anchors": ["fispact_analysis.py: plot_spectra"]}
{"id": "C160", "title": "plot_pie draws the share of every dominant nuclide", "statement": "plot_pie draws one wedge, in table order, for exactly the nuclides whose percentage is above the threshold, and the wedge takes the percentage of the circle given in the table; a parameter that is no column raises ValueError.", "quantifier": "all tables of dominant nuclides, parameters and thresholds", "why_tests_cant": "Tests use one table and do not look at the wedges.", "anchors": ["fispact_analysis.py: plot_pie"]}
{"id": "C161", "title": "plot_nuc_cont draws one curve per nuclide over all time steps", "statement": "plot_nuc_cont draws, for every nuclide of the list in order, one value per time step (that of the first row of the nuclide in the inventory, 0 where it is absent) against the times of the summary, then the total of the parameter if wanted, with a logarithmic time axis exactly when a time exceeds 10 hours; an empty list of nuclides, or a summary with another number of rows than there are time steps, raises ValueError.", "quantifier": "all lists of inventories, nuclide lists, summaries and parameters", "why_tests_cant": "The numbers of steps, nuclides and rows are unbounded; tests use one output file.", "anchors": ["fispact_analysis.py: plot_nuc_cont"]}
{"id": "C162", "title": "print table 101 is read completely", "statement": "read_table101 returns the nine fixed column names and, for each line between the header of the table and the first blank line behind it, exactly the words of the line in order; a row with more than nine words, rows that all have fewer, or the lack of the closing star line, raises ValueError.", "quantifier": "all output files, start lines and tables", "why_tests_cant": "The number and layout of the rows are unbounded; tests use one file.", "anchors": ["mcnp_output_reader.py: read_table101"]}
{"id": "C163", "title": "print table 60 is read completely", "statement": "read_table60 merges the two header lines of the table into one list of column names and returns, for every row up to the totals above the minimum source weight line, the words behind the first one in order.", "quantifier": "all output files with a table 60 of any number of rows and particles", "why_tests_cant": "The number of cells and of particle columns is unbounded; tests use one file.", "anchors": ["mcnp_output_reader.py: read_table60"]}
{"id": "C164", "title": "angle and energy bins of a type 1 tally are read completely", "statement": "process_energy_angle_tally returns the angle boundaries from -1 upwards, one list of results and one of errors per angle bin holding exactly the values printed in that bin, and the energies of the bins.", "quantifier": "all numbers of angle bins, of energy bins, and all printed values", "why_tests_cant": "The numbers of bins are unbounded; tests use one file.", "anchors": ["mcnp_output_reader.py: process_energy_angle_tally", "mcnp_output_reader.py: process_ang_string"]}
{"id": "C165", "title": "surfaces and areas of a type 2 tally are all read", "statement": "get_type2_surface_numbers and get_type2_surface_areas return all surface numbers and all areas printed for the tally, in order; without a list of areas they raise ValueError.", "quantifier": "all tally sections", "why_tests_cant": "Tests use a tally with a few surfaces that fit on one line.", "anchors": ["mcnp_output_reader.py: get_type2_surface_areas", "mcnp_output_reader.py: get_type2_surface_numbers"]}
{"id": "C166", "title": "results of the statistical tests are read", "statement": "read_stat_tests returns the words behind the first of the first line that starts with \" passed\", and [\"no\"] if there is no such line.", "quantifier": "all tally sections", "why_tests_cant": "Tests use a few fixed sections.", "anchors": ["mcnp_output_reader.py: read_stat_tests"]}
{"id": "C167", "title": "read_output_file assembles every part of the output", "statement": "read_output_file leaves the file system unchanged and returns exactly one tally for each distinct tally number announced in the file, the comments, warnings, fatal flag and rendezvous count of the file, and tables 60 and 101 exactly when they are announced; a missing file raises FileNotFoundError, a directory OSError.", "quantifier": "all file systems and paths", "why_tests_cant": "All output files are possible inputs; tests use a few.", "anchors": ["mcnp_output_reader.py: read_output_file"]}
{"id": "C168", "title": "read_mcnp_input assembles the whole input", "statement": "read_mcnp_input leaves the file system unchanged and returns an object whose three blocks joined are the lines of the file cut at the first two blank lines, with one material per material number and one tally per tally number of the data block, the comments of the whole file, and flags telling whether a void, kcode, sdef or ptrac card starts a line of the data block; a missing file raises FileNotFoundError, a directory OSError.", "quantifier": "all file systems and paths", "why_tests_cant": "All input files are possible; tests use a few fixed ones.", "anchors": ["mcnp_input_reader.py: read_mcnp_input", "mcnp_input_reader.py: process_data_block"]}
{"id": "C169", "title": "thermal and mx cards of a material are all read", "statement": "read_material_lines attaches to the material the text of its mt card and of all its mx cards, and of no card of another material.", "quantifier": "all data blocks and material numbers", "why_tests_cant": "Numbers that are prefixes of each other and several mx cards do not occur in the tests.", "anchors": ["mcnp_input_reader.py: read_material_lines", "mcnp_input_reader.py: get_card_lines", "mcnp_input_reader.py: get_mt_lines", "mcnp_input_reader.py: get_mx_lines", "mcnp_input_reader.py: get_prefixed_lines"]}
{"id": "C170", "title": "The calculation type of an input is reported", "statement": "The description of an input names a kcode calculation exactly if the data block has a kcode card, and a fixed source calculation exactly if it has an sdef card and no kcode card.", "quantifier": "all input files", "why_tests_cant": "Combinations of cards are not covered by the tests.", "anchors": ["mcnp_input_reader.py: mcnp_input.__str__"]}
{"id": "C171", "title": "is_by_weight tells how a material is given", "statement": "The attribute is_by_weight of a material is true exactly if its fractions are negative (weight fractions in MCNP).", "quantifier": "all material cards", "why_tests_cant": "No test looks at the attribute.", "anchors": ["mcnp_input_reader.py: mcnp_material.__init__"]}
{"id": "C172", "title": "Surface checks find wrong entries", "statement": "check_plane, check_sphere, check_cylinder, check_cone and check_GQ return True exactly for surfaces whose number of entries is one MCNP accepts for the type.", "quantifier": "all surfaces", "why_tests_cant": "The functions are stubs; tests only call them with valid surfaces.", "anchors": ["mcnp_input_reader.py: check_plane", "mcnp_input_reader.py: check_sphere", "mcnp_input_reader.py: check_cylinder", "mcnp_input_reader.py: check_cone", "mcnp_input_reader.py: check_GQ"]}
{"id": "C173", "title": "Descriptions of tallies and surfaces", "statement": "The description of a tally has one line for its number, one for its card, and one for each of energy bins, time bins and multiplier exactly if the tally has it; that of a surface has one line each for number, type and entries and one for the transform exactly if there is one.", "quantifier": "all tallies and surfaces whose texts are single lines", "why_tests_cant": "All combinations of flags and texts are possible.", "anchors": ["mcnp_input_reader.py: mcnp_tally.__str__", "mcnp_input_reader.py: mcnp_surface.__str__"]}
{"id": "C174", "title": "Description of an xsdir", "statement": "The description of an xsdir gives the file, the data path and the three counts, each on a line of its own.", "quantifier": "all xsdir objects", "why_tests_cant": "No test looks at the text.", "anchors": ["xsdir_reader.py: XSDir.__str__"]}
{"id": "C175", "title": "plot_slice draws every voxel of the plane in its place", "statement": "plot_slice draws one cell per voxel of the plane nearest to the requested position, coloured by its value and bounded by the boundaries of the voxel, shows all cells completely, names the position of the plane in the title, and draws the errors exactly if asked for; a selection with more or fewer values than voxels raises TypeError, an unknown plane ValueError.", "quantifier": "all meshes, positions, planes and limits", "why_tests_cant": "Tests only check that a file is written.", "anchors": ["meshtal_analysis.py: plot_slice", "meshtal_analysis.py: create_plot"]}
{"id": "C176", "title": "rel_err_hist counts every voxel once", "statement": "rel_err_hist draws fifteen bars over equal intervals from the least to the greatest relative error (widened by a half on both sides if they agree, 0 to 1 without data); the height of a bar is the number of voxels whose error lies in the interval, the last interval closed, and the heights sum up to the number of errors that are numbers; a table without the column raises KeyError.", "quantifier": "all tables", "why_tests_cant": "Tests only check that a figure is returned.", "anchors": ["meshtal_analysis.py: rel_err_hist"]}
{"id": "C177", "title": "Every mesh can be described", "statement": "The text of a mesh gives the number of voxels, the number of bins on each axis and the voxel volume, for every mesh read from a file.", "quantifier": "all meshes", "why_tests_cant": "Tests print uniform meshes only.", "anchors": ["meshtal_analysis.py: meshtally.__str__"]}
{"id": "C178", "title": "read_fispact_input returns the lines of a file", "statement": "read_fispact_input returns the lines of an existing file without line ends and changes nothing; a missing path raises FileNotFoundError and a directory ValueError.", "quantifier": "all paths and file systems", "why_tests_cant": "No test reads a missing file and a directory.", "anchors": ["fispact_input_reader.py: read_fispact_input"]}
{"id": "C179", "title": "Comments, irradiation and cooling times of a FISPACT input are found", "statement": "get_comments returns the comments of a FISPACT input, get_irrad_profile its irradiation steps and get_cool_times its cooling times.", "quantifier": "all inputs", "why_tests_cant": "The functions are not tested.", "anchors": ["fispact_input_reader.py: get_comments", "fispact_input_reader.py: get_irrad_profile", "fispact_input_reader.py: get_cool_times"]}
{"id": "C180", "title": "normalise_mesh scales the greatest value to a half", "statement": "normalise_mesh multiplies all values of a mesh by one factor so that the greatest becomes one half.", "quantifier": "all meshes", "why_tests_cant": "The function is not tested.", "anchors": ["magic.py: normalise_mesh"]}
{"id": "C181", "title": "do_magic writes a weight window file", "statement": "do_magic writes its output to the file of the given name for every readable mesh tally file.", "quantifier": "all inputs", "why_tests_cant": "The function is not tested.", "anchors": ["magic.py: do_magic", "magic.py: generate_header", "magic.py: generate_mesh_header"]}
{"id": "C182", "title": "plot_nps_stats shows all entries of the log", "statement": "plot_nps_stats draws the particles of the rendezvous over their times, and computer times, random numbers and collisions (each without the first) over the particles, exactly if each marked line holds its numbers and the lists fit; anything else raises ValueError, a missing file FileNotFoundError.", "quantifier": "all logs", "why_tests_cant": "A test can only see that a figure is written.", "anchors": ["mcnp_run_plot.py: plot_nps_stats"]}
{"id": "C183", "title": "ensure_dir_exists makes a directory and harms nothing", "statement": "After a successful ensure_dir_exists the path is a directory; nothing that existed is changed and only directories leading to the path are made, also if the call fails. It succeeds whenever no file is in the way and the missing directories may be made; an existing directory is left alone, and an existing file raises OSError and is kept.", "quantifier": "all paths and file systems", "why_tests_cant": "Tests cannot run through all states of a file system.", "anchors": ["neut_utilities.py: ensure_dir_exists"]}
{"id": "C184", "title": "check_upper_bound compares with the greatest boundary", "statement": "check_upper_bound is true exactly if the energy is not above the first boundary, which is the greatest one of a falling structure; no boundaries raise ValueError.", "quantifier": "all boundaries and energies", "why_tests_cant": "Tests use a few energies.", "anchors": ["fispact_fluxes_writer.py: check_upper_bound"]}
{"id": "C185", "title": "cooling_ts_data returns the cooling steps", "statement": "cooling_ts_data returns the time steps from the first cooling row of the summary on, none if there is none.", "quantifier": "all outputs", "why_tests_cant": "Tests use one example or none at all.", "anchors": ["fispact_analysis.py: cooling_ts_data"]}
{"id": "C186", "title": "The description of an output tally says what is in it", "statement": "The text of a tally of the output reader has one line each with its number, its particle, whether it has energy bins and whether it has time bins; cell tallies give the number of cells, surface tallies the number of surfaces and whether there are angle bins, detectors their position.", "quantifier": "all tallies of supported types", "why_tests_cant": "Tests check the text of a few tallies.", "anchors": ["mcnp_output_reader.py: MCNP_pulse_tally.__str__", "mcnp_output_reader.py: MCNP_type5_tally.__str__", "mcnp_output_reader.py: MCNP_cell_tally.__str__", "mcnp_output_reader.py: MCNP_surface_tally.__str__"]}
{"id": "C187", "title": "convert_energy_time_data_to_df labels data that fit and keeps others", "statement": "convert_energy_time_data_to_df returns a table with times as rows and energies as columns holding the data exactly if there are as many rows as times and every row has as many values as there are energies; other data are returned unchanged.", "quantifier": "all data and labels", "why_tests_cant": "Tests use data that fit.", "anchors": ["mcnp_output_reader.py: convert_energy_time_data_to_df"]}
{"id": "C188", "title": "Numbers of cards are checked against MCNP's range", "statement": "is_valid_mat_num, is_valid_surf_num, is_valid_cell_num, is_valid_tally_num and is_valid_universe_num are true exactly for the numbers from 1 to 99999999; is_number_of_tallies_valid is true exactly up to 9999.", "quantifier": "all integers", "why_tests_cant": "Tests use two numbers per function.", "anchors": ["mcnp_input_reader.py: is_valid_mat_num", "mcnp_input_reader.py: is_valid_surf_num", "mcnp_input_reader.py: is_valid_cell_num", "mcnp_input_reader.py: is_valid_tally_num", "mcnp_input_reader.py: is_valid_universe_num", "mcnp_input_reader.py: is_number_of_tallies_valid"]}
{"id": "C189", "title": "evaluate_gq_eq is the equation of the gq card", "statement": "evaluate_gq_eq called with the entries A to J and K of an MCNP gq card returns the left hand side of the card's equation, so that find_sense_gq tells the two sides apart as MCNP does.", "quantifier": "all entries and points", "why_tests_cant": "A continuum of values.", "anchors": ["geom_utils.py: evaluate_gq_eq", "geom_utils.py: find_sense_gq"]}
{"id": "C190", "title": "process_energy_lines reads every line of three numbers", "statement": "process_energy_lines returns energies, results and relative errors of lines with three numbers, in order.", "quantifier": "all lines with three numbers", "why_tests_cant": "Tests use one layout.", "anchors": ["mcnp_output_reader.py: process_energy_lines"]}
{"id": "C191", "title": "get_type1_surface_numbers returns the last words of the surface lines", "statement": "get_type1_surface_numbers returns, in order, the last word of each line after the first two that contains the word surface.", "quantifier": "all lists of lines", "why_tests_cant": "Tests use one block.", "anchors": ["mcnp_output_reader.py: get_type1_surface_numbers"]}
{"id": "C192", "title": "Tally blocks are written to a file only for debugging", "statement": "print_tally_lines_to_file changes nothing unless the log level is DEBUG; with DEBUG it writes the lines to the file with the tally's number and keeps all other files.", "quantifier": "all lines, names and file systems", "why_tests_cant": "Tests use one level and one file.", "anchors": ["mcnp_output_reader.py: print_tally_lines_to_file"]}
{"id": "C193", "title": "The FISPACT files of a cell describe the cell", "statement": "write_fispact and write_fluxes write the data of the cell, run_fispact runs FISPACT and cleanup_fispact_run removes its files; read_summary returns the summary.", "quantifier": "all cells", "why_tests_cant": "The functions have no tests of their contents.", "anchors": ["r2s_cell.py: write_fispact", "r2s_cell.py: write_fluxes", "r2s_cell.py: run_fispact", "r2s_cell.py: cleanup_fispact_run", "mcnp_output_reader.py: read_summary"]}
{"id": "C194", "title": "The descriptions of cells and materials", "statement": "The text of a cell has one line each for number, material, geometry, surfaces, importances and comments and one for the density exactly if there is one; the text of a material has number, number of nuclides and composition and the keywords exactly if there are any.", "quantifier": "all cells and materials", "why_tests_cant": "Tests print one object.", "anchors": ["mcnp_input_reader.py: mcnp_cell.__str__", "mcnp_input_reader.py: mcnp_material.__str__"]}
{"id": "C195", "title": "read_tally returns the data of the tally asked for", "statement": "The tally returned has the number asked for, the type, particle and number of histories printed at the top of its own section, and depends on nothing but the header and the lines up to the next tally; a tally that is not followed by another line beginning '1tally' is never read.", "quantifier": "all files and tally numbers", "why_tests_cant": "That other parts of a file have no influence is a statement about pairs of files; tests read one file at a time.", "anchors": ["mcnp_output_reader.py: read_tally"]}
{"id": "C196", "title": "Time bins of a surface tally are complete and belong to their surface", "statement": "For a surface tally with time bins the k-th entry of results and errors holds all values and errors of the k-th surface in order, and the times are those of the section.", "quantifier": "all numbers of surfaces and time bins", "why_tests_cant": "A slice that is one line too short or a surface left out shows only for some numbers of lines and surfaces.", "anchors": ["mcnp_output_reader.py: read_type_surface"]}
{"id": "C197", "title": "Time bins of a cell tally are complete and belong to their cell", "statement": "For a cell tally with time bins the k-th entry of results and errors holds all values and errors of the k-th cell in order, and the times are those of the cells.", "quantifier": "all numbers of cells and time bins", "why_tests_cant": "The search for a cell continues behind the section of the previous one, so mistakes depend on how many cells come before.", "anchors": ["mcnp_output_reader.py: read_type_cell"]}
{"id": "C198", "title": "Energy and time bins of a surface tally are complete and belong to their surface", "statement": "For a surface tally with energy and time bins the k-th entry of results and errors is the matrix of values and errors of the k-th surface, row i holding row i of each of its time blocks, with times and energies those of the blocks.", "quantifier": "all numbers of surfaces, time blocks and energies", "why_tests_cant": "Whether the blocks of one surface mix with those of the next depends on the numbers of blocks and surfaces.", "anchors": ["mcnp_output_reader.py: read_type_surface", "mcnp_output_reader.py: process_e_t_userbin"]}
{"id": "C199", "title": "The limits file is found beside the module and read completely", "statement": "read_OOS looks up a relative path in the folder of the module and an absolute path as it is; from a tab separated table with Unix or Windows line ends it gives the name and the level of every row in order, and refuses an empty file, another header and rows with a third column.", "quantifier": "all folders, paths, file systems and tables", "why_tests_cant": "A test runs from one folder with one file; a reader that depends on the working directory or drops a row of some table passes it.", "anchors": ["fispact_analysis.py: read_OOS"]}
{"id": "C200", "title": "The shipped limits file is fit for its use", "statement": "With data/t1.txt every nuclide, activity and non-zero mass gets a decision; entries listed twice agree, so the order of rows is irrelevant; an unlisted nuclide is judged at least as strictly as any listed one; and every entry other than Other is a nuclide name as FISPACT prints it.", "quantifier": "all nuclide names, activities and masses, all rows of the file and all orders of them", "why_tests_cant": "Tests look up a few nuclides; a name that no inventory can contain silently falls back to the limit for all others.", "anchors": ["fispact_analysis.py: read_OOS", "fispact_analysis.py: check_nuclide_oos"]}
{"id": "C201", "title": "Atomic weight ratios of an MCNP xsdir are found by nuclide", "statement": "After read_xsdir of a file in the format of the MCNP manual (a section of pairs, each the identifier of a nuclide and its atomic weight ratio) the awr table maps every identifier to its ratio.", "quantifier": "all sections, numbers of lines and numbers of pairs on a line", "why_tests_cant": "The tests use made-up lines with a leading word; whether the keys are the nuclides for real files is a statement about all of them.", "anchors": ["xsdir_reader.py: XSDir._process_awr", "xsdir_reader.py: XSDir.from_file"]}
{"id": "C202", "title": "Entries of the xsdir directory continued on the next line are kept whole", "statement": "An entry of the directory that ends in + and goes on in the next line is found under its identifier with all its fields, and the continuation is not an entry of its own.", "quantifier": "all files, positions and entries", "why_tests_cant": "Continued entries occur only in some libraries.", "anchors": ["xsdir_reader.py: XSDir._process_directory", "xsdir_reader.py: read_xsdir"]}
{"id": "C203", "title": "The 3D array of a mesh read from a file holds its values", "statement": "For a six column mesh read from a file in which every voxel has one row, convert_to_3d_array puts the value of every row at the position of its voxel.", "quantifier": "all mesh tally files and all meshes in them", "why_tests_cant": "The tables are stored with 24 binary digits and the mid points with 53; tests on meshes with mid points such as 0.5 or 15 never meet a mid point that is rounded.", "anchors": ["meshtal_analysis.py: convert_to_3d_array", "meshtal_analysis.py: convert_to_df", "meshtal_analysis.py: read_meshtally_file"]}
{"id": "C204", "title": "Time bins of a point detector are read", "statement": "For a point detector with time bins and no energy bins, read_type_5 returns the times of the headings, the value of every time bin as result, its relative error as error, and no energies.", "quantifier": "all outputs with any number of blocks of time bins", "why_tests_cant": "No test covers this case, and a sample could have one value by coincidence; that results and errors are exchanged is a statement about all files.", "anchors": ["mcnp_output_reader.py: read_type_5", "mcnp_output_reader.py: process_e_t_userbin"]}
{"id": "C205", "title": "Print table 60 has one row for each cell", "statement": "In an output file the table returned by read_table60 has exactly one row for each cell listed in print table 60.", "quantifier": "all output files, whatever is printed between table 60 and the line of the minimum source weight", "why_tests_cant": "Which tables are printed behind table 60 depends on the problem and the PRINT card.", "anchors": ["mcnp_output_reader.py: read_table60"]}
{"id": "C206", "title": "Surfaces of a cell are the numbers of its geometry", "statement": "The surfaces stored for a cell by process_cell_block are the absolute values of the numbers in its geometry, however the numbers, signs, brackets and colons are spaced.", "quantifier": "all cell blocks and all cards in them, with geometry in any of the spacings that MCNP accepts", "why_tests_cant": "Geometries are written in many spacings; the tests use a few cells.", "anchors": ["mcnp_input_reader.py: process_cell_block", "mcnp_input_reader.py: process_geom"]}
{"id": "C207", "title": "Comments behind a cell card do not change the cell", "statement": "The text behind a dollar sign on a cell card changes neither surfaces nor importances of the cell, and it is stored as its comment.", "quantifier": "all cell cards with any comment", "why_tests_cant": "A comment can hold any words; a test sees one comment.", "anchors": ["mcnp_input_reader.py: process_cell_block", "mcnp_input_reader.py: process_geom"]}
{"id": "C208", "title": "Importances on cell cards are read in every form", "statement": "Importances of a cell card are stored in each form MCNP allows: with equals sign, with a blank instead or around it, and for several particles at once.", "quantifier": "all cell cards with importances in one of these forms", "why_tests_cant": "The tests use the form imp:n=1 only.", "anchors": ["mcnp_input_reader.py: process_cell_block", "mcnp_input_reader.py: process_geom"]}
{"id": "C209", "title": "Parameters of a cell are not surfaces", "statement": "The values of parameters on a cell card, such as vol, u, fill and trcl, are not stored as surfaces.", "quantifier": "all cell cards with parameters", "why_tests_cant": "Which parameters are used with blanks and several values varies between inputs.", "anchors": ["mcnp_input_reader.py: process_cell_block", "mcnp_input_reader.py: process_geom"]}
{"id": "C210", "title": "Cells described by another cell are read", "statement": "A card of the form n like k but list gives a cell with the number n.", "quantifier": "all cell blocks with such a card", "why_tests_cant": "No test has a like card; that no such block can be read is a statement about all blocks.", "anchors": ["mcnp_input_reader.py: process_cell_block"]}
{"id": "C211", "title": "Cards that start in columns 2 to 5 are read", "statement": "A card that starts with one to four blanks is read as one that starts in column 1.", "quantifier": "all blocks and cards", "why_tests_cant": "The tests have cards in column 1 only.", "anchors": ["mcnp_input_reader.py: process_cell_block", "mcnp_input_reader.py: process_surface_block", "mcnp_input_reader.py: get_material_numbers", "mcnp_input_reader.py: get_tally_numbers", "mcnp_input_reader.py: read_mode_card"]}
{"id": "C212", "title": "Cards continued with an ampersand are read whole", "statement": "A card that ends in an ampersand is continued on the next line, whatever this line starts with.", "quantifier": "all blocks with such cards", "why_tests_cant": "The tests have no such card, and what is lost depends on the next line.", "anchors": ["mcnp_input_reader.py: process_cell_block", "mcnp_input_reader.py: process_geom", "mcnp_input_reader.py: read_material_lines"]}
{"id": "C213", "title": "Bins for all tallies are recorded", "statement": "A tally has energy or time bins if it has a card of its own or if there is a card for all tallies, e0 or t0.", "quantifier": "all data blocks and tally numbers", "why_tests_cant": "The tests have no e0 or t0 card.", "anchors": ["mcnp_input_reader.py: read_tally_lines", "mcnp_input_reader.py: is_card_present"]}
{"id": "C214", "title": "Every kind of surface card is read", "statement": "Surface cards with reflecting, white and periodic boundaries and surfaces given by points are read.", "quantifier": "all surface blocks with such a card", "why_tests_cant": "One such card makes all surfaces of the block unreadable; the tests have none.", "anchors": ["mcnp_input_reader.py: process_surface_block", "mcnp_input_reader.py: process_surface_line", "mcnp_input_reader.py: is_surface_type_valid"]}
{"id": "C215", "title": "Importances in the data block belong to the cells", "statement": "Importances given by an imp card in the data block are those of the cells, in their order.", "quantifier": "all inputs", "why_tests_cant": "Inputs usually have importances in one of the two places; the tests have them on the cell cards.", "anchors": ["mcnp_input_reader.py: process_cell_block", "mcnp_input_reader.py: read_mcnp_input"]}
{"id": "C216", "title": "Every particle of MCNP is valid on the mode card", "statement": "is_mode_valid accepts a mode card exactly if all its entries are particles of MCNP.", "quantifier": "all mode cards, all particles", "why_tests_cant": "There are 37 particles; the tests use few.", "anchors": ["mcnp_input_reader.py: is_mode_valid"]}
{"id": "C217", "title": "All tallies of an input are listed", "statement": "get_tally_numbers lists the number of each tally card, with a star or plus sign in front and with a letter behind the number.", "quantifier": "all data blocks", "why_tests_cant": "A listing can be right for all plain cards of a test and fail for other forms of the card.", "anchors": ["mcnp_input_reader.py: get_tally_numbers"]}
{"id": "C218", "title": "Wavelengths shown by the plots are those of neutrons", "statement": "The wavelength in the labels and in the title of energy_slice is the de Broglie wavelength of a neutron with the energy drawn (within one part in ten thousand), the inverse of wavelength_to_meV_neutron, and the shaded band of plot_ET_heatmap holds exactly the energies whose wavelength lies between 2 and 10 Å.", "quantifier": "all positive energies, all lists of targets and energies", "why_tests_cant": "Tests draw figures without reading the numbers in them, and an identity between real functions cannot be sampled exhaustively.", "anchors": ["mcnp_analysis.py: energy_slice", "mcnp_analysis.py: plot_ET_heatmap", "neut_constants.py: wavelength_to_meV_neutron"]}
{"id": "C219", "title": "The legend names the curves of spectra", "statement": "plot_spectra shows a legend in which every curve is named: by the names the caller gives, in order, else by the cell or surface of the curve or the boundaries of its cosine bin; different curves have different names. The axis is labelled as a current if there is a current among the tallies and as a flux otherwise.", "quantifier": "every list of tallies that can be drawn and every legend of the caller", "why_tests_cant": "The legend depends on the mixture and the order of the tally types and on a variable that one branch overwrites.", "anchors": ["mcnp_analysis.py: plot_spectra"]}
{"id": "C220", "title": "Blank lines of a mesh tally file are no voxels", "statement": "A mesh read by read_meshtally_file has one row per data line: the blank line that MCNP writes between two meshes adds no row, and slices, lines, points, arrays and the count of zeros are those of the data lines.", "quantifier": "every well formed meshtal file with blank lines anywhere among the data, every mesh and every request", "why_tests_cant": "The test files end without a blank line or the tests look at single voxels; the places and the number of blank lines are unbounded.", "anchors": ["meshtal_analysis.py: read_meshtally_file", "meshtal_analysis.py: convert_to_df"]}
{"id": "C221", "title": "The quantities of a summary can be plotted under their names and with units", "statement": "For the table made by read_summary_data, plot_summary draws each of activity, dose rate, heat output, ingestion dose, inhalation dose and tritium activity against the time in any unit, and names the quantity with its unit at the axis.", "quantifier": "all summaries, quantities, time units and arguments", "why_tests_cant": "It joins two modules: the names of the columns are chosen in the reader and used in the plot; the tests of the plot build their own tables.", "anchors": ["fispact_analysis.py: plot_summary", "fispact_output_reader.py: read_summary_data"]}
{"id": "C222", "title": "plot_nuc_cont draws every column of the inventory with its total and names it", "statement": "For the inventories and the summary read from one file, plot_nuc_cont draws any column of numbers of the inventory for the listed nuclides, with the total if wanted, and names at the axis the quantity that is drawn.", "quantifier": "all inventories, summaries, nuclide lists and columns", "why_tests_cant": "It joins two modules whose columns have different names; the text at the axis is not looked at by tests.", "anchors": ["fispact_analysis.py: plot_nuc_cont", "fispact_output_reader.py: read_summary_data", "fispact_output_reader.py: parse_inventory"]}
{"id": "C223", "title": "plot_nuc_chart checks its table and colours from the smallest to the largest value", "statement": "plot_nuc_chart refuses anything but a table with the columns of the property, the element and the mass number; it names the property, shows the ranges asked for, and its colour scale runs upwards from the smallest to the largest value of the property, so that every value is on it.", "quantifier": "every argument, property and range", "why_tests_cant": "The scale is only wrong for the smallest value and for values that are close together, and tests do not look at the colours.", "anchors": ["fispact_analysis.py: plot_nuc_chart"]}
{"id": "C224", "title": "Chart of an inventory that was read", "statement": "plot_nuc_chart of an inventory made by parse_inventory shows every nuclide of the inventory, ground state or isomeric state, in the cell of its mass number and element.", "quantifier": "all inventories that parse_inventory returns", "why_tests_cant": "The test only calls the function on one file and compares nothing; the file has isomeric states, and no test looks at the cells.", "anchors": ["fispact_analysis.py: plot_nuc_chart", "fispact_output_reader.py: parse_inventory"]}
{"id": "C225", "title": "Pies of the dominant nuclides that were read", "statement": "plot_pie of a table made by parse_dominant draws each of the five quantities from the rows of its half: one wedge per row above the threshold, proportional to its value; every other parameter is refused with ValueError.", "quantifier": "all tables that parse_dominant returns, all parameters and thresholds", "why_tests_cant": "The test draws the activity of one table and tries one unknown parameter; the other quantities and columns are never asked for.", "anchors": ["fispact_analysis.py: plot_pie", "fispact_output_reader.py: parse_dominant"]}
{"id": "C226", "title": "Gamma spectra of the time steps that were read", "statement": "plot_spectra draws every time step that read_time_step returns, with the 24 numbers of the spectrum in the file.", "quantifier": "all time steps that are read", "why_tests_cant": "The test draws one time step of one file; the steps without activity have no spectrum and are not tried.", "anchors": ["fispact_analysis.py: plot_spectra", "fispact_output_reader.py: read_time_step", "fispact_output_reader.py: parse_spectra"]}
{"id": "C227", "title": "Names of the elements of a composition", "statement": "The element of every row of parse_composition is the symbol of the file and a key of Z_dict.", "quantifier": "all composition sections", "why_tests_cant": "Tests compare a few rows; that the name has an atomic number has to hold for the symbols of one and of two letters.", "anchors": ["fispact_output_reader.py: parse_composition", "neut_constants.py: Z_dict"]}
{"id": "C228", "title": "Spectra of tallies with energy and time bins", "statement": "plot_spectra of a point detector or pulse height tally with energy and time bins draws for every time bin the values of its energy bins, each divided by the width of its energy bin, from the first energy bin that is not zero.", "quantifier": "all energies and all matrices of results with one row per energy", "why_tests_cant": "The division broadcasts along the wrong axis; a test with as many time bins as energy bins of one width passes, all other shapes and widths have to be covered.", "anchors": ["mcnp_analysis.py: plot_spectra", "mcnp_analysis.py: calc_bin_width", "neut_utilities.py: find_first_non_zero"]}
{"id": "C229", "title": "Out of scope decision for outputs that were read", "statement": "find_when_oos on the time steps of a FISPACT output returns the number of the first step in which every active nuclide of the inventory has at most the activity per gram of its level in data/t1.txt (0.01 Bq/g if it is not listed), the names of the inventory being those of the limits file.", "quantifier": "all lists of time steps, all masses of the material, all lines of inventories", "why_tests_cant": "The test file holds one kilogram of material, for which the fixed divisor 1000 is right; any other mass in the file has to be covered.", "anchors": ["fispact_analysis.py: find_when_oos", "fispact_analysis.py: check_inventory_oos", "fispact_analysis.py: check_nuclide_oos", "fispact_output_reader.py: parse_inventory", "fispact_output_reader.py: read_time_step"]}
{"id": "C230", "title": "Coordinates of ptrac events", "statement": "For every ptrac file with all variables, process_tracks returns every history and every event with the position, direction, energy, weight and time that the identifiers in the header assign to the columns, for all kinds of event and for one or several kinds of particles.", "quantifier": "all track sections with lines of a history of two or three entries", "why_tests_cant": "The test file has one kind of particle and tests look at one event; the layouts of the ten combinations of event and particles have to be right for all values.", "anchors": ["mcnp_ptrac_reader.py: process_event", "mcnp_ptrac_reader.py: process_tracks"]}
{"id": "C231", "title": "Cell and particle of ptrac events", "statement": "The cell and the particle of every event are those the identifiers in the header assign to the columns.", "quantifier": "all track sections with all variables", "why_tests_cant": "The tests never look at cell or particle of a real event; that no layout gives the cell has to be shown for all values.", "anchors": ["mcnp_ptrac_reader.py: process_event"]}
{"id": "C232", "title": "Type of ptrac events", "statement": "The type of every event is its own: the first is on the line of the history, the others on the line of the event before.", "quantifier": "all track sections with all variables", "why_tests_cant": "The test expects the shifted types of one history; the relation has to be stated for all histories.", "anchors": ["mcnp_ptrac_reader.py: process_event", "mcnp_ptrac_reader.py: process_tracks"]}
{"id": "C233", "title": "Every form of ptrac file is read", "statement": "Files with positions only, and files with further entries on the lines of the histories, are read completely.", "quantifier": "all track sections", "why_tests_cant": "The one test file has all variables and two entries per history; the other forms MCNP writes are not tried.", "anchors": ["mcnp_ptrac_reader.py: process_tracks", "mcnp_ptrac_reader.py: process_event"]}
{"id": "C234", "title": "Header of a ptrac file", "statement": "read_ptrac reads all histories of a file with all variables, whatever number of lines the keywords take in the header.", "quantifier": "all headers with at least two lines of keywords, all track sections", "why_tests_cant": "The header of the test file has exactly the nine lines that are removed; longer headers leave lines that must not be taken for histories or events.", "anchors": ["mcnp_ptrac_reader.py: read_ptrac", "mcnp_ptrac_reader.py: remove_header", "mcnp_ptrac_reader.py: process_tracks"]}
{"id": "C235", "title": "Small numbers of a FISPACT output are read", "statement": "A number below 1E-99, which Fortran writes without the letter E (1.2345-100), is read with its value wherever it is printed: totals, inventory, dominant nuclides, composition, spectrum and summary.", "quantifier": "all FISPACT outputs, all places of a number in them, all such numbers, every float parser that rejects numbers without E", "why_tests_cant": "the sample output has no such number, and the places where one can occur are unlimited", "anchors": ["fispact_output_reader.py: read_time_step", "fispact_output_reader.py: parse_inventory", "fispact_output_reader.py: parse_dominant", "fispact_output_reader.py: parse_composition", "fispact_output_reader.py: parse_spectra", "fispact_output_reader.py: read_summary_data", "fispact_output_reader.py: read_fis_out"]}
{"id": "C236", "title": "Cooling and flux of the time steps", "statement": "A time step that was read carries is_cooling = True exactly when its first line says COOLING TIME, and flux_amp is the flux printed in that line; num_cool_step and time_days of the output describe its cooling steps.", "quantifier": "all FISPACT outputs that can be read, all time steps", "why_tests_cant": "the attributes have plausible values in objects that were never filled; a test compares with these", "anchors": ["fispact_output_reader.py: FispactTimeStep.__init__", "fispact_output_reader.py: FispactOutput.__init__", "fispact_output_reader.py: read_time_step", "fispact_output_reader.py: read_fis_out"]}
{"id": "C237", "title": "Uncertainties of the summary", "statement": "The columns act_un, dr_un, heat_un, ing_un and inhal_un of the summary hold the uncertainties in per cent that are printed behind the values.", "quantifier": "all summaries of FISPACT-II outputs, all rows, all five columns", "why_tests_cant": "the columns exist and have the right length, only their entries are missing", "anchors": ["fispact_output_reader.py: read_summary_data"]}
{"id": "C238", "title": "Mesh tallies of every form are read or refused", "statement": "Meshes that are not written as columns of Cartesian coordinates, value and error - cylindrical meshes, matrices, columns with volumes - are read completely or raise an exception; no mesh is lost without a message.", "quantifier": "all mesh tally files, any number of meshes of any form", "why_tests_cant": "the sample files have Cartesian columns only; the number and order of meshes of other forms is unlimited", "anchors": ["meshtal_analysis.py: read_meshtally_file", "meshtal_analysis.py: convert_to_df"]}
{"id": "C239", "title": "The activation run sets up every tallied cell", "statement": "When main returns, there is at least one cell in the neutron flux tallies of the output, and for every such cell the folder cell<n> holds the collapse and array inputs and an unchanged copy of the FILES file (which lies outside these folders); nothing outside these folders is changed, whether main returns or raises; the set-up succeeds whenever the folders may be made and written, cells named twice included, and a second run changes nothing.", "quantifier": "every configuration, output and input file, every prior state of the file system, every list of cells", "why_tests_cant": "Tests use one prepared folder; overlapping cell names (cell1, cell12), repeated cells and prior states are unbounded.", "anchors": ["r2s_cell.py: main", "r2s_cell.py: fispact_setup"]}
{"id": "C240", "title": "Charts of energy and time bins that were read", "statement": "A tally with energy and time bins read from an MCNP output can be handed to time_slice, energy_slice and plot_ET_heatmap as it is: the energies and times are those printed, and the value drawn for an energy and a time is the value printed for them times the factor, whether or not the column of the total over time is printed.", "quantifier": "all energy and time blocks as MCNP prints them (ascending energies and times, any number of blocks), targets, factors and limits", "why_tests_cant": "The test of the reader and the tests of the charts use one file and made up arrays of fixed shapes; that the shapes fit for every number of bins, and fail without the total, needs a statement about both functions.", "anchors": ["mcnp_output_reader.py: process_e_t_userbin", "mcnp_output_reader.py: read_type_5", "mcnp_analysis.py: time_slice", "mcnp_analysis.py: energy_slice", "mcnp_analysis.py: plot_ET_heatmap"]}
{"id": "C241", "title": "Readers look at the lines of their file only and change nothing", "statement": "Every reader leaves the file system as it was, returns the same for two file systems that agree on the named file, and returns the same for files with the same lines, whether the lines end in LF, CRLF or CR; a path without a file is reported with FileNotFoundError and a directory with an error.", "quantifier": "every path, every two file systems, every content and every mixture of line ends, for each of the readers", "why_tests_cant": "The tests read a few stored files with one kind of line end from one folder; what else a reader might look at or change, and files from other systems, are unbounded.", "anchors": ["neut_utilities.py: get_lines", "fispact_printlib_reader.py: read_fispact_printlib", "xsdir_reader.py: read_xsdir", "mcnp_ptrac_reader.py: read_ptrac", "mcnp_output_reader.py: read_output_file", "mcnp_input_reader.py: read_mcnp_input", "mcnp_run_plot.py: plot_nps_stats", "fispact_output_reader.py: read_fis_out", "fispact_input_reader.py: read_fispact_input", "meshtal_analysis.py: read_meshtally_file", "r2s_cell.py: read_config"]}
{"id": "C242", "title": "Writers change their file only", "statement": "Every function that writes one file leaves every other path as it was, whether it returns or raises; when it raises nothing is changed at all; and afterwards the path is a file or what it was before.", "quantifier": "every path, every state of the file system, every data handed over, for each of the writers", "why_tests_cant": "A test looks at the file it expects; that no other path is touched, for every prior state and also when the call fails, is a statement about all paths.", "anchors": ["neut_utilities.py: write_lines", "neut_utilities.py: text_replace", "output_utilities.py: csv_out", "output_utilities.py: html_f4_tab_out", "output_utilities.py: html_output", "output_utilities.py: output_points", "lost_points.py: output_lost_points", "ofile_reduce.py: reduce_ofile", "fispact_fluxes_writer.py: write_fluxes_file", "mcnp_output_reader.py: print_tally_lines_to_file", "r2s_cell.py: write_collapse", "r2s_cell.py: write_array", "r2s_cell.py: write_fispact", "r2s_cell.py: write_fluxes", "r2s_cell.py: copy_files_file"]}
{"id": "C243", "title": "What making a material does to the inventory", "statement": "output_mcnp_mat gives the ZAID and normalised atoms of the rows, leaves the inventory it is given as it was, and gives the same when called again.", "quantifier": "all tables, with or without the columns, mass numbers as numbers or texts", "why_tests_cant": "The test looks at the returned table only; the table of the caller afterwards, also after a failure, is not looked at.", "anchors": ["fispact_analysis.py: output_mcnp_mat"]}
{"id": "C244", "title": "Mean number of events of a ptrac file that was read", "statement": "For every ptrac file, mean_num_events of what read_ptrac returns is the number of events printed in the file over the number of histories printed in it.", "quantifier": "all headers, all numbers of histories, all events of each history, both layouts of the history line", "why_tests_cant": "The tests of the mean build their histories by hand and the tests of the reader look at one file; no test takes the mean of a file, nor reads a file without histories.", "anchors": ["mcnp_ptrac_reader.py: mean_num_events", "mcnp_ptrac_reader.py: read_ptrac", "mcnp_ptrac_reader.py: process_tracks"]}
{"id": "C245", "title": "Selections work in the precision of the table", "statement": "For a mesh whose table is stored in single precision, pick_point, extract_line and extract_slice return the rounded values of exactly the rows they would select in the table as printed in the file.", "quantifier": "every mesh, every point, line and plane, every requested energy or time, and every rounding to 24 binary digits", "why_tests_cant": "Whether a row is found depends on how its coordinate and the mid point round; tests use a handful of coordinates that round to themselves or stay apart.", "anchors": ["meshtal_analysis.py: pick_point", "meshtal_analysis.py: extract_line", "meshtal_analysis.py: extract_slice", "meshtal_analysis.py: convert_to_df"]}
{"id": "C246", "title": "Selections of a sum of meshes are the sums of the selections", "statement": "For two meshes with the same voxels, the value at a point, the values along a line, the values of a slice and the 3D array of add_mesh(m1, m2) are the sums of those of m1 and m2, for every energy and time bin, and a selection fails on the sum exactly when and as it fails on the meshes.", "quantifier": "all pairs of meshes, points, lines, planes, energy and time requests", "why_tests_cant": "the statement combines the addition with every selection over all meshes; a test compares a few voxels of one pair of files", "anchors": ["meshtal_analysis.py: add_mesh", "meshtal_analysis.py: pick_point", "meshtal_analysis.py: extract_line", "meshtal_analysis.py: extract_slice", "meshtal_analysis.py: convert_to_3d_array", "meshtal_analysis.py: filter_energy_time"]}
{"id": "C247", "title": "Upper and lower case letters of an MCNP input mean the same", "statement": "Two MCNP inputs that differ in upper and lower case letters only are read with the same result: the same materials, tallies, mode, numbers, flags, surfaces and cells with the same importances, or the same error (texts that are kept as written keep their case).", "quantifier": "all pairs of inputs that differ in the case of letters", "why_tests_cant": "a test rewrites one file in capitals; the statement is for every text and every mixture of cases", "anchors": ["mcnp_input_reader.py: read_mcnp_input", "mcnp_input_reader.py: get_card_lines", "mcnp_input_reader.py: read_material_lines", "mcnp_input_reader.py: read_tally_lines", "mcnp_input_reader.py: get_material_numbers", "mcnp_input_reader.py: get_tally_numbers", "mcnp_input_reader.py: process_surface_block", "mcnp_input_reader.py: process_cell_block", "mcnp_input_reader.py: process_imp"]}
{"id": "C248", "title": "Blanks between the words of an MCNP card do not matter", "statement": "Two MCNP inputs that differ only in the blanks and tabs between the words of their cards are read with the same result: the same mode, materials, tallies, material and tally numbers and surfaces, or the same error (texts that are kept as written keep their blanks).", "quantifier": "all pairs of lists of lines that have the same words line by line", "why_tests_cant": "a test compares a few layouts of one card; the statement is for every text and every layout", "anchors": ["mcnp_input_reader.py: get_card_lines", "mcnp_input_reader.py: read_mode_card", "mcnp_input_reader.py: read_material_lines", "mcnp_input_reader.py: read_tally_lines", "mcnp_input_reader.py: get_material_numbers", "mcnp_input_reader.py: get_tally_numbers", "mcnp_input_reader.py: process_surface_block"]}
{"id": "C249", "title": "A material made from an inventory is read back with its nuclides and fractions", "statement": "The lines that output_mcnp_mat makes from an inventory, put behind the name of a material card and read with read_material_lines, give each nuclide of the inventory under its identifier with the library suffix asked for, and its fraction of all atoms as it was printed.", "quantifier": "all inventories whose elements are in the table, all suffixes, all ways of printing a fraction as one word", "why_tests_cant": "a test reads back one small inventory; the statement is for every inventory, number format and suffix", "anchors": ["fispact_analysis.py: output_mcnp_mat", "mcnp_input_reader.py: read_material_lines"]}
{"id": "C250", "title": "Geometry does not depend on the origin of the coordinates", "statement": "If all points and planes are moved by the same vector, distances, sides, radii and directions computed by geom_utils stay the same, and every point that it returns is moved by that vector.", "quantifier": "all points, planes, spheres, rays and all vectors to move by", "why_tests_cant": "a test moves one configuration by one vector; most tests sit at the origin, where a forgotten or doubled offset is invisible", "anchors": ["geom_utils.py: dist_bet_points", "geom_utils.py: midpoint_bet_points", "geom_utils.py: dist_between_point_plane", "geom_utils.py: dist_between_planes", "geom_utils.py: line_segment_plane_intersection", "geom_utils.py: plane_sphere_intersect", "geom_utils.py: plane_plane_intersect", "geom_utils.py: rotate_x", "geom_utils.py: rotate_y", "geom_utils.py: rotate_z", "geom_utils.py: project_ray", "geom_utils.py: sphere_ray_intersect"]}
{"id": "C251", "title": "Geometry does not depend on the unit of length", "statement": "If all lengths are given in another unit, geom_utils computes the same angles and sides, and lengths, areas and volumes multiplied once, twice and three times by the factor between the units; points that it returns are the same points in the new unit.", "quantifier": "all positive factors and all arguments, also those that are refused", "why_tests_cant": "a test compares a few sizes; a formula of the wrong dimension can agree at the sizes that were tried", "anchors": ["geom_utils.py: area_circle", "geom_utils.py: perim_circle", "geom_utils.py: area_cyl", "geom_utils.py: area_cyl_shell", "geom_utils.py: area_sphere", "geom_utils.py: area_cone_surf", "geom_utils.py: volume_sphere", "geom_utils.py: volume_spherical_shell", "geom_utils.py: volume_cyl", "geom_utils.py: volume_cyl_shell", "geom_utils.py: volume_cone", "geom_utils.py: line_segment_plane_intersection", "geom_utils.py: coefficients_of_line_from_points"]}
{"id": "C252", "title": "Geometry does not depend on the direction of the axes", "statement": "If all points, directions and normal vectors are turned about the origin with rotate_x, rotate_y or rotate_z, distances, angles, sides and radii computed by geom_utils stay the same and every point that it returns is turned as well (for the line of two planes at a given height: for turns about z).", "quantifier": "all angles, the three axes, all points, planes, spheres and rays", "why_tests_cant": "tests use vectors along the axes and a few angles; the statement is for every direction", "anchors": ["geom_utils.py: rotate_x", "geom_utils.py: rotate_y", "geom_utils.py: rotate_z", "geom_utils.py: dist_between_planes", "geom_utils.py: angle_between_planes", "geom_utils.py: plane_sphere_intersect", "geom_utils.py: plane_plane_intersect", "geom_utils.py: line_segment_plane_intersection", "geom_utils.py: sphere_ray_intersect"]}
{"id": "C253", "title": "A reduced output file can be read in place of the whole file", "statement": "If an MCNP output file is reduced with reduce_ofile and the reduced file is then read with the output reader, every tally is the one that is read from the whole file, and the reduced file can be read whenever the whole file can.", "quantifier": "all output files, all paths, all tally numbers", "why_tests_cant": "tests reduce one sample file and never read the result back; the statement is about every file and every tally in it", "anchors": ["ofile_reduce.py: reduce_ofile", "mcnp_output_reader.py: read_output_file", "mcnp_output_reader.py: read_tally", "mcnp_output_reader.py: find_term_line"]}
{"id": "C254", "title": "The order of the data cards does not matter", "statement": "If the cards of the data block of an MCNP input, each with its continuation lines and comments, are put into any other order, the input is read with the same cells, surfaces, mode, flags, materials and tallies; only the order of the lists of numbers and the line numbers of comments follow the cards.", "quantifier": "all lists of cards in which no two cards have the same name, all orders", "why_tests_cant": "the number of orders grows with the factorial of the number of cards; tests read one order", "anchors": ["mcnp_input_reader.py: get_card_lines", "mcnp_input_reader.py: read_mode_card", "mcnp_input_reader.py: read_material_lines", "mcnp_input_reader.py: read_tally_lines", "mcnp_input_reader.py: get_material_numbers", "mcnp_input_reader.py: get_tally_numbers", "mcnp_input_reader.py: is_card_present", "mcnp_input_reader.py: process_data_block"]}
{"id": "C255", "title": "The order of cells and surfaces does not matter", "statement": "If the cells of the cell block and the surfaces of the surface block of an MCNP input are put into any other order, each card with its continuation lines and comments, every cell and every surface is found under its number with the same content, and the rest of the input is read as before.", "quantifier": "all lists of cell cards and of surface cards without repeated numbers, all orders, all data blocks", "why_tests_cant": "the number of orders grows with the factorial of the number of cards; tests read one order", "anchors": ["mcnp_input_reader.py: process_cell_block", "mcnp_input_reader.py: process_surface_block", "mcnp_input_reader.py: process_surface_line", "mcnp_input_reader.py: read_mcnp_input"]}
{"id": "C256", "title": "Comment lines of an MCNP input have no influence", "statement": "Two MCNP inputs that differ only by comment lines are read with the same cells, surfaces, mode, flags, materials and tallies, wherever the comment lines are: between cards, between a card and its continuation lines, or at the ends of blocks.", "quantifier": "all pairs of inputs that differ by comment lines only", "why_tests_cant": "comments may be put at any line of any input; tests contain a few comments at fixed places", "anchors": ["mcnp_input_reader.py: get_card_lines", "mcnp_input_reader.py: read_material_lines", "mcnp_input_reader.py: read_tally_lines", "mcnp_input_reader.py: process_cell_block", "mcnp_input_reader.py: process_surface_block", "mcnp_input_reader.py: split_blocs", "mcnp_input_reader.py: read_mcnp_input"]}
{"id": "C257", "title": "Selections of a mesh scale with its values", "statement": "If all values of a mesh are multiplied by a factor, for another source strength or another unit, the values of every point, line, slice, error band, sum and 3D array are multiplied by the same factor and the errors, axes and refusals stay as they are.", "quantifier": "all meshes, all factors, all points, lines and planes, all energies and times", "why_tests_cant": "tests use one mesh with one normalisation; the statement relates results for every factor", "anchors": ["meshtal_analysis.py: pick_point", "meshtal_analysis.py: extract_line", "meshtal_analysis.py: extract_slice", "meshtal_analysis.py: filter_energy_time", "meshtal_analysis.py: calculate_upper_mesh_vals", "meshtal_analysis.py: calculate_lower_mesh_vals", "meshtal_analysis.py: add_mesh", "meshtal_analysis.py: convert_to_3d_array"]}
{"id": "C258", "title": "Relative results do not depend on the source strength", "statement": "If all results are multiplied by a positive factor, the time of the peak, the normalised weights of a mesh, the number of zero voxels, the wedges of the pie chart, the ratio of two spectra and the place where a curve is cut off stay the same.", "quantifier": "all results, all positive factors", "why_tests_cant": "tests use one source strength; the statement relates the results for every factor", "anchors": ["mcnp_analysis.py: find_peak_time", "mcnp_analysis.py: plot_spectra_ratio", "meshtal_analysis.py: count_zeros", "fispact_analysis.py: plot_pie", "fispact_analysis.py: reduce_to_non_zero", "magic.py: normalise_mesh"]}
{"id": "C259", "title": "Results do not depend on the units of length, energy and time", "statement": "If lengths, energies or times are given in another unit, selections of a mesh find the same voxels, voxels are uniform or not as before, and the peak, the spectrum at a time and the widths and mid points of bins are the same in the new unit.", "quantifier": "all meshes, spectra and bins, all positive factors between the units", "why_tests_cant": "tests use one unit; the statement relates the results for every pair of units", "anchors": ["meshtal_analysis.py: pick_point", "meshtal_analysis.py: extract_line", "meshtal_analysis.py: extract_slice", "meshtal_analysis.py: calc_mid_points", "meshtal_analysis.py: check_uniform", "meshtal_analysis.py: filter_energy_time", "mcnp_analysis.py: find_peak_time", "mcnp_analysis.py: time_slice", "mcnp_analysis.py: calc_bin_width", "mcnp_analysis.py: calc_mid_points"]}
{"id": "C260", "title": "The title of an MCNP input has no influence", "statement": "Two MCNP inputs that differ only in their first line, the title, are read with the same cells, surfaces, mode, flags, materials and tallies, or are refused with the same error.", "quantifier": "all titles, all inputs", "why_tests_cant": "a title is any text; tests use a few titles", "anchors": ["mcnp_input_reader.py: split_blocs", "mcnp_input_reader.py: process_cell_block", "mcnp_input_reader.py: read_mcnp_input"]}
{"id": "C261", "title": "Text behind the end of an MCNP input is not read", "statement": "Lines that follow the blank line which ends the data block, where MCNP stops reading, change nothing in what is read from the input.", "quantifier": "all inputs, all texts behind the end", "why_tests_cant": "the text behind the end is arbitrary; tests have none", "anchors": ["mcnp_input_reader.py: split_blocs", "mcnp_input_reader.py: process_data_block", "mcnp_input_reader.py: get_card_lines", "mcnp_input_reader.py: read_material_lines", "mcnp_input_reader.py: read_tally_lines", "mcnp_input_reader.py: is_card_present", "mcnp_input_reader.py: read_mcnp_input"]}
{"id": "C262", "title": "An MCNP input with a message block is read", "statement": "An MCNP input that begins with a message block and a blank line is read with the same content as without them.", "quantifier": "all message blocks, all inputs", "why_tests_cant": "tests contain no message block; the statement is about every one", "anchors": ["mcnp_input_reader.py: split_blocs", "mcnp_input_reader.py: find_blank_lines", "mcnp_input_reader.py: process_cell_block", "mcnp_input_reader.py: read_mcnp_input"]}
{"id": "C263", "title": "The order of the tallies in an MCNP output does not matter", "statement": "If the sections of the tallies in an MCNP output file are put into any other order, every tally is read with the same data and the same tally numbers are found.", "quantifier": "all lists of sections with different tally numbers, all orders, all text around them", "why_tests_cant": "the number of orders grows with the factorial of the number of tallies; tests read one order", "anchors": ["mcnp_output_reader.py: read_tally", "mcnp_output_reader.py: get_tally_nums", "mcnp_output_reader.py: find_term_line"]}
{"id": "C264", "title": "Preparing an input for vised does not change the rest of it", "statement": "An MCNP input whose mphys cards were turned into comments for vised is read with the same cells, surfaces, materials, tallies, mode and flags as before.", "quantifier": "all inputs, any number of mphys cards", "why_tests_cant": "mphys cards can stand anywhere among the data cards; tests have one small text", "anchors": ["mcnp_input_reader.py: vised_compatible", "mcnp_input_reader.py: read_mcnp_input"]}
{"id": "C265", "title": "No mphys card is left for vised", "statement": "After preparing a file for vised, every mphys in it is part of a comment.", "quantifier": "all file contents", "why_tests_cant": "tests replace one word in one text", "anchors": ["mcnp_input_reader.py: vised_compatible"]}
{"id": "C266", "title": "Tabs replaced by blanks keep the input", "statement": "An MCNP input whose tabs are replaced by blanks is read like the input typed with blanks.", "quantifier": "all inputs, all numbers of blanks", "why_tests_cant": "tabs can stand in every line; tests replace the tab in one line", "anchors": ["neut_utilities.py: replace_tab_with_space", "mcnp_input_reader.py: read_mcnp_input"]}
{"id": "C267", "title": "The order of the nuclides does not matter", "statement": "Inventories with the same rows in another order give the same selections, material, decision on the scope and time series, and an output whose inventory lines come in another order gives the same rows.", "quantifier": "all inventories, all orders", "why_tests_cant": "there are n! orders of n nuclides; tests use one", "anchors": ["fispact_output_reader.py: parse_inventory", "fispact_output_reader.py: parse_composition", "fispact_analysis.py: remove_stable", "fispact_analysis.py: filter_emits_gamma", "fispact_analysis.py: filter_emits_beta", "fispact_analysis.py: filter_emits_alpha", "fispact_analysis.py: output_mcnp_mat", "fispact_analysis.py: check_inventory_oos", "fispact_analysis.py: get_not_oos_nuclides", "fispact_analysis.py: check_nuclide_oos", "fispact_analysis.py: plot_nuc_cont"]}
{"id": "C268", "title": "Selections can be combined in any order", "statement": "Two selections of rows, of an inventory or of a list of emission lines, give the same rows in either order, and a selection made again changes nothing.", "quantifier": "all tables, all pairs of selections", "why_tests_cant": "tests make one selection of one table", "anchors": ["fispact_analysis.py: remove_stable", "fispact_analysis.py: filter_emits_gamma", "fispact_analysis.py: filter_emits_beta", "fispact_analysis.py: filter_emits_alpha", "fispact_printlib_reader.py: energy_filter", "fispact_printlib_reader.py: particle_filter"]}
{"id": "C269", "title": "Histories of several track files", "statement": "The histories of two sets of tracks, one behind the other, are those of the first followed by those of the second, and the mean number of events is the weighted mean of both.", "quantifier": "all track lines that are read", "why_tests_cant": "tests read one file", "anchors": ["mcnp_ptrac_reader.py: process_tracks", "mcnp_ptrac_reader.py: remove_header", "mcnp_ptrac_reader.py: read_ptrac", "mcnp_ptrac_reader.py: mean_num_events"]}
{"id": "C270", "title": "Each card is read on its own", "statement": "A block of an MCNP input gives for each cell, surface, material and tally what its own cards alone give: the cards of the others have no influence on it.", "quantifier": "all blocks of cards with different names", "why_tests_cant": "tests read one input and never one with the other cards taken away", "anchors": ["mcnp_input_reader.py: get_card_lines", "mcnp_input_reader.py: process_cell_block", "mcnp_input_reader.py: process_surface_block", "mcnp_input_reader.py: read_material_lines", "mcnp_input_reader.py: read_tally_lines"]}
{"id": "C271", "title": "Comments behind data cards have no influence", "statement": "An input with comments behind its data cards is read like the input without them.", "quantifier": "all inputs and all comment texts", "why_tests_cant": "tests have a few fixed comments", "anchors": ["mcnp_input_reader.py: remove_inline_comment", "mcnp_input_reader.py: get_card_lines", "mcnp_input_reader.py: read_material_lines", "mcnp_input_reader.py: read_tally_lines", "mcnp_input_reader.py: read_mcnp_input"]}
{"id": "C272", "title": "The order of the voxels in the table does not matter", "statement": "Points, lines, slices, arrays and counts taken from a mesh are the same whatever the order in which the voxels are listed.", "quantifier": "all meshes and all orders of their rows", "why_tests_cant": "tests have tables in the order in which MCNP writes them", "anchors": ["meshtal_analysis.py: pick_point", "meshtal_analysis.py: extract_line", "meshtal_analysis.py: extract_slice", "meshtal_analysis.py: convert_to_3d_array", "meshtal_analysis.py: count_zeros", "meshtal_analysis.py: calculate_upper_mesh_vals", "meshtal_analysis.py: calculate_lower_mesh_vals"]}
{"id": "C273", "title": "The order of the meshes in a mesh tally file does not matter", "statement": "The meshes read from a file are the same whatever their order, those of two files one behind the other are those of both files, and a requested mesh is the same wherever it stands in the file.", "quantifier": "all mesh tally files in the form of C64 and all orders of their meshes", "why_tests_cant": "tests read a few files with the meshes in the order of their numbers", "anchors": ["meshtal_analysis.py: read_meshtally_file", "meshtal_analysis.py: convert_to_df"]}
{"id": "C274", "title": "Files that cannot be read are reported as such", "statement": "A reader that fails does so with an exception about the file (not found, a directory, a wrong value, too few lines or words, a missing key), and not with one about the program itself (a missing attribute, a variable without value, a wrong type, the end of an iterator).", "quantifier": "all contents of files and all file systems", "why_tests_cant": "tests read a few wrong files; the exception depends on where in the file something is missing", "anchors": ["mcnp_input_reader.py: read_mcnp_input", "mcnp_output_reader.py: read_output_file", "fispact_output_reader.py: read_fis_out", "meshtal_analysis.py: read_meshtally_file", "xsdir_reader.py: read_xsdir", "fispact_printlib_reader.py: read_fispact_printlib", "mcnp_ptrac_reader.py: read_ptrac", "mcnp_run_plot.py: plot_nps_stats", "fispact_input_reader.py: read_fispact_input", "ofile_reduce.py: reduce_ofile", "lost_points.py: output_lost_points"]}
{"id": "C275", "title": "How the equation of a plane is written does not matter", "statement": "Distances, sides, circles, angles and lines of intersection are the same for all equations with the same points, up to the side to which the normal points.", "quantifier": "all planes and all pairs of equations with the same points", "why_tests_cant": "tests have a few planes, mostly with unit normals", "anchors": ["geom_utils.py: dist_between_planes", "geom_utils.py: dist_between_point_plane", "geom_utils.py: angle_between_planes", "geom_utils.py: plane_sphere_intersect", "geom_utils.py: plane_plane_intersect", "geom_utils.py: line_segment_plane_intersection", "geom_utils.py: find_sense_plane"]}
{"id": "C276", "title": "The order of two points, planes or radii does not matter", "statement": "Functions of two objects of the same kind give the same result in either order, lines of intersection up to their direction.", "quantifier": "all pairs of points, planes, lengths and radii", "why_tests_cant": "tests give the arguments in one order", "anchors": ["geom_utils.py: dist_bet_points", "geom_utils.py: midpoint_bet_points", "geom_utils.py: coefficients_of_line_from_points", "geom_utils.py: pythag_h", "geom_utils.py: angle_between_planes", "geom_utils.py: dist_between_planes", "geom_utils.py: plane_plane_intersect", "geom_utils.py: line_segment_plane_intersection", "geom_utils.py: volume_spherical_shell", "geom_utils.py: area_cyl_shell", "geom_utils.py: volume_cyl_shell"]}
{"id": "C277", "title": "Files that were cut off are noticed", "statement": "A file that lost its end, because a run was stopped or a disk was full, is refused or gives what the whole file gives.", "quantifier": "all files and all places where they end too early", "why_tests_cant": "tests read whole files", "anchors": ["fispact_printlib_reader.py: read_fispact_printlib", "fispact_output_reader.py: read_fis_out", "ofile_reduce.py: reduce_ofile", "mcnp_ptrac_reader.py: read_ptrac", "xsdir_reader.py: read_xsdir", "meshtal_analysis.py: read_meshtally_file", "mcnp_output_reader.py: read_output_file"]}
{"id": "C278", "title": "Blanks at the end of lines have no influence", "statement": "Blanks and tabs added or removed at the ends of the lines of a file, as editors do it, change nothing in what is read from the file.", "quantifier": "all files and all blanks at the ends of their lines", "why_tests_cant": "tests read files as the programs wrote them", "anchors": ["mcnp_ptrac_reader.py: read_ptrac", "xsdir_reader.py: read_xsdir", "meshtal_analysis.py: read_meshtally_file", "mcnp_output_reader.py: get_table_dict", "mcnp_output_reader.py: read_type_cell"]}
{"id": "C279", "title": "The order of nuclear data entries does not matter", "statement": "Listing the tables or the atomic weights of an xsdir file in another order, or the nuclides of an emission line list in another order, changes nothing in what is found under a name: the same table fields, the same weights, the same emission lines of each nuclide.", "quantifier": "all xsdir files and emission line lists, all permutations of their entries", "why_tests_cant": "Tests read one file in its one order; a permutation of thousands of entries with arbitrary contents, and whether a name carried from line to line leaks into another nuclide, needs a proof over all orders.", "anchors": ["xsdir_reader.py: XSDir._process_directory", "xsdir_reader.py: XSDir._process_awr", "xsdir_reader.py: XSDir._process_thermal", "fispact_printlib_reader.py: read_fispact_printlib"]}
{"id": "C280", "title": "Empty lines at the end of files have no influence", "statement": "Line ends written behind the last line of a track file, an xsdir file, an emission line list, a run log, an MCNP input, an MCNP output, a FISPACT output or a mesh tally file change nothing in what is read from it.", "quantifier": "all files and any number of line ends behind them", "why_tests_cant": "tests read files as they are", "anchors": ["neut_utilities.py: get_lines", "xsdir_reader.py: read_xsdir", "mcnp_ptrac_reader.py: read_ptrac", "fispact_printlib_reader.py: read_fispact_printlib", "mcnp_run_plot.py: plot_nps_stats", "mcnp_input_reader.py: read_mcnp_input", "meshtal_analysis.py: read_meshtally_file", "mcnp_output_reader.py: read_output_file", "fispact_output_reader.py: read_fis_out"]}
{"id": "C281", "title": "The chart of nuclides does not depend on the order of the rows", "statement": "plot_nuc_chart draws the same figure, or raises the same exception, for an inventory whose rows come in another order.", "quantifier": "all inventories, all orders of their rows, all views", "why_tests_cant": "the test draws one file in one order and looks at no cell", "anchors": ["fispact_analysis.py: plot_nuc_chart"]}
{"id": "C282", "title": "The functions of geom_utils agree with each other", "statement": "The side of a plane or sphere on which a point lies agrees with its distance from plane or centre; segments, rays, circles and lines of intersection agree with the sides of their points; the distance between planes is that of their points; shells without a hole are whole bodies; coordinates agree by way of each other.", "quantifier": "all points, planes, spheres, segments, rays, radii and heights", "why_tests_cant": "each test looks at one function with a few numbers; none compares two functions", "anchors": ["geom_utils.py: dist_between_point_plane", "geom_utils.py: find_sense_plane", "geom_utils.py: find_sense_sphere", "geom_utils.py: line_segment_plane_intersection", "geom_utils.py: dist_between_planes", "geom_utils.py: sphere_ray_intersect", "geom_utils.py: project_ray", "geom_utils.py: dist_bet_points", "geom_utils.py: plane_sphere_intersect", "geom_utils.py: plane_plane_intersect", "geom_utils.py: pythag_h", "geom_utils.py: volume_spherical_shell", "geom_utils.py: volume_cyl_shell", "geom_utils.py: area_cyl_shell", "geom_utils.py: volume_cone", "geom_utils.py: cartesian_to_cylindrical", "geom_utils.py: cartesian_to_spherical", "geom_utils.py: cylindrical_to_spherical"]}
{"id": "C283", "title": "An inventory put together from two", "statement": "If the rows of two inventories are put one behind the other, selections, nuclides above their limit and material nuclides are those of the first followed by those of the second, the whole is out of scope exactly when both parts are, and curves and charts are the sums of those of the parts.", "quantifier": "all pairs of inventories", "why_tests_cant": "tests use one inventory at a time", "anchors": ["fispact_analysis.py: remove_stable", "fispact_analysis.py: filter_emits_gamma", "fispact_analysis.py: filter_emits_beta", "fispact_analysis.py: filter_emits_alpha", "fispact_analysis.py: is_nuc_present", "fispact_analysis.py: check_inventory_oos", "fispact_analysis.py: get_not_oos_nuclides", "fispact_analysis.py: plot_nuc_cont", "fispact_analysis.py: plot_nuc_chart", "fispact_analysis.py: output_mcnp_mat", "fispact_output_reader.py: parse_inventory"]}
{"id": "C284", "title": "Less activity never brings an inventory back into scope", "statement": "An inventory that is out of scope stays out of scope, whenever a decision is returned, if no nuclide has more activity or if no limit is lowered; if no activity grows with time, all steps from the one that find_when_oos returns are out of scope.", "quantifier": "all inventories, limits and series of time steps", "why_tests_cant": "tests check single inventories against single tables of limits", "anchors": ["fispact_analysis.py: check_inventory_oos", "fispact_analysis.py: check_nuclide_oos", "fispact_analysis.py: find_when_oos"]}
{"id": "C285", "title": "Wrapped tokens use as few lines as possible", "statement": "wrap_tokens puts the words of a card on lines no wider than the limit. No other division of the same words, in their order, into a first line behind the prefix and continuation lines behind their prefix stays within the limit and has fewer lines.", "quantifier": "for all prefixes, continuation prefixes, tokens and widths for which wrap_tokens returns lines, and all divisions of the words into lines", "why_tests_cant": "The number of divisions of the words is exponential in their number; a test compares one result with one expected text.", "anchors": ["output_utilities.py: wrap_tokens"]}
{"id": "C286", "title": "Programs fail if their input cannot be read", "statement": "A program of the package that is called with an input file ends with an exception, and so with an exit status that is not 0, and changes nothing, if there is no such file or the name is that of a folder; what its reader raises for an existing file ends the program too.", "quantifier": "for all names, file systems, and output names of the programs that have one", "why_tests_cant": "The programs are not called by tests at all, and a test would call them with some files only.", "anchors": ["fispact_input_reader.py: __main__", "fispact_output_reader.py: __main__", "fispact_printlib_reader.py: __main__", "lost_points.py: __main__", "magic.py: __main__", "mcnp_input_reader.py: __main__", "mcnp_output_reader.py: __main__", "mcnp_ptrac_reader.py: __main__", "mcnp_run_plot.py: __main__", "meshtal_analysis.py: __main__", "ofile_reduce.py: __main__", "r2s_cell.py: main", "xsdir_reader.py: __main__"]}
{"id": "C287", "title": "Programs write the file they are told to and no other", "statement": "The programs that only read change no file. The programs for lost points and for shortened outputs change only the file whose name is given on the command line (for lost points with .3d behind it, lost.3d if no name is given), and nothing if they fail. The figure of a run is saved under the given name.", "quantifier": "for all names of inputs and outputs and all file systems", "why_tests_cant": "That nothing else is changed is a statement about every other file of every file system.", "anchors": ["lost_points.py: __main__", "ofile_reduce.py: __main__", "mcnp_run_plot.py: __main__", "mcnp_run_plot.py: plot_nps_stats"]}
{"id": "C288", "title": "Numbers used twice are noticed", "statement": "An MCNP input in which two cells, two surfaces, two materials or two tallies have the same number, which MCNP refuses, is not read as if there were only one of them: the reader raises an exception.", "quantifier": "for all cell, surface and data blocks, numbers and cards", "why_tests_cant": "The statement is about every pair of cards at any distance in any input; the tests have no input with a repeated number.", "anchors": ["mcnp_input_reader.py: process_cell_block", "mcnp_input_reader.py: process_surface_block", "mcnp_input_reader.py: read_material_lines", "mcnp_input_reader.py: read_tally_lines", "mcnp_input_reader.py: get_material_numbers", "mcnp_input_reader.py: get_tally_numbers"]}
{"id": "C289", "title": "Several meshes can be added in any order", "statement": "For meshes with the same voxels the sum made by adding one after the other with add_mesh exists and does not depend on the order: all values, errors and attributes are the same. Each value is the sum of the values, and the square of each error the sum of the squares of the errors.", "quantifier": "for all lists of meshes with the same voxels, all orders, and all voxels", "why_tests_cant": "The number of orders grows with the factorial of the number of meshes; tests add two meshes in one order.", "anchors": ["meshtal_analysis.py: add_mesh"]}
{"id": "C290", "title": "Small movements, small changes", "statement": "Moving points by a little changes what the geometry functions give by no more than that: the distance between two points by no more than the sum of their movements, the point half way by no more than half that sum, the distance from a plane by no more than the movement. A point nearer to another point than to a plane or to a sphere is on the same side as that point, and for planes the limit is sharp. The hypotenuse changes by no more than the legs do.", "quantifier": "all points, all planes with a normal that is not zero, all spheres, all lengths of legs", "why_tests_cant": "Continuity is a statement about all pairs of nearby inputs; a jump sits at single values, such as a leg of length exactly 0, which tests with ordinary numbers do not meet.", "anchors": ["geom_utils.py: dist_bet_points", "geom_utils.py: midpoint_bet_points", "geom_utils.py: dist_between_point_plane", "geom_utils.py: find_sense_plane", "geom_utils.py: find_sense_sphere", "geom_utils.py: pythag_h"]}
{"id": "C291", "title": "Wider lines, not more lines", "statement": "If tokens can be divided into lines of some width, they can be divided into lines of every greater width, and the number of lines is not greater.", "quantifier": "all prefixes, tokens and continuation prefixes, all pairs of widths", "why_tests_cant": "Division of text into lines word by word is not monotone in general (a wider line can push a word to an unlucky place), so a comparison of some widths shows nothing about the others.", "anchors": ["output_utilities.py: wrap_tokens"]}
{"id": "C292", "title": "Places are looked up in their order", "statement": "Of two places the one further along is never given an earlier mid point. A place between two neighbouring mid points is given one of the two. A place inside the mesh is given a mid point no further away than half the width of its voxel and the rounding of the mid points to five decimals.", "quantifier": "all lists of mid points and boundaries, of equal and unequal width, all places", "why_tests_cant": "An exchange of two voxels can happen for single pairs of places between the mid points; a test looks at some places only.", "anchors": ["meshtal_analysis.py: find_nearest_mid", "meshtal_analysis.py: calc_mid_points"]}
{"id": "C293", "title": "Messages for debugging do not change what is read", "statement": "An MCNP output file is read in the same way whether or not messages for debugging are switched on. With them every tally that is read also gets a file with its lines in the working directory; no other file is changed, and the output file itself is kept.", "quantifier": "all output files, all file systems, both levels of messages", "why_tests_cant": "Tests run with one level of messages in one folder that can be written; the difference shows for other folders, other names of the output file and for every other file nearby.", "anchors": ["mcnp_output_reader.py: print_tally_lines_to_file", "mcnp_output_reader.py: read_tally", "mcnp_output_reader.py: read_output_file"]}
{"id": "C294", "title": "Running a program again changes nothing", "statement": "A program that is run a second time with the same arguments ends as it did the first time, with the same result or the same exception, and leaves every file as the first run left it. This includes a reduced output file that replaces the file it was taken from, and for the lost points every table that does not replace its input.", "quantifier": "all arguments of the programs, all contents of the files, all file systems", "why_tests_cant": "A test runs a program once on one file in a fresh folder; whether what a program leaves behind changes its next run depends on every file and on every choice of names.", "anchors": ["ofile_reduce.py: reduce_ofile", "lost_points.py: output_lost_points", "fispact_fluxes_writer.py: write_fluxes_file"]}
{"id": "C295", "title": "Each time step of a FISPACT output is read on its own", "statement": "If the lines of one time step are replaced by those of another, only the record of this step changes, to that of the new lines; the other steps, the summary, the parameters and the mass stay as they were. The same lines give the same record wherever they stand in the file, except for the number of the step. A step that is taken out of the file is missing from the result, and the numbers of the later steps fall by one; a step that is put into the file is put into the result at its place, and the numbers of the later steps rise by one.", "quantifier": "all output files, all time steps and all lines that can replace them", "why_tests_cant": "The tests read two whole files; an influence of one step on another would show only if a step were exchanged in every possible way.", "anchors": ["fispact_output_reader.py: read_fis_out", "fispact_output_reader.py: read_time_step", "fispact_output_reader.py: read_parameter"]}
{"id": "C296", "title": "Text behind the results of an output has no influence", "statement": "Lines written behind an MCNP or FISPACT output, such as the messages of a batch system, change nothing in what is read from it, as long as they contain none of the words the reader looks for.", "quantifier": "all output files that can be read, all lines behind them without these words", "why_tests_cant": "The tests read output files as the codes leave them; what follows the last page has no limit in length or content.", "anchors": ["mcnp_output_reader.py: read_output_file", "mcnp_output_reader.py: read_tally", "fispact_output_reader.py: read_fis_out"]}
{"id": "C297", "title": "Text in front of an output has no influence", "statement": "Lines written in front of an MCNP or FISPACT output or a mesh tally file, such as the messages of a batch system, change nothing in what is read from it, as long as they contain none of the words the reader looks for; only the line numbers of the print tables move with the lines.", "quantifier": "all output files, all lines in front of them without these words", "why_tests_cant": "The tests read output files as the codes leave them; what stands in front of them has no limit in length or content.", "anchors": ["mcnp_output_reader.py: read_output_file", "mcnp_output_reader.py: read_version", "mcnp_output_reader.py: read_run_date", "fispact_output_reader.py: read_fis_out", "fispact_output_reader.py: check_fisp_version", "meshtal_analysis.py: read_meshtally_file"]}
{"id": "C298", "title": "Results do not depend on the order in which sets are listed", "statement": "Python lists the strings of a set in an order that changes from run to run. Reading the same MCNP output again gives the same result, and two runs of the activation on the same files leave the same files, whatever these orders are.", "quantifier": "all output files, all orders in which sets can be listed, all configurations and file systems", "why_tests_cant": "A test sees the one order that its process happens to use; files with few tallies often come out in the same order by chance.", "anchors": ["mcnp_output_reader.py: get_tally_nums", "mcnp_output_reader.py: read_tally", "mcnp_output_reader.py: read_type_surface", "mcnp_output_reader.py: read_output_file", "r2s_cell.py: get_cells_mcnp", "r2s_cell.py: main"]}
{"id": "C299", "title": "Points, lines, slices and arrays of a mesh agree", "statement": "The functions that take values out of a mesh agree with each other: every column of a slice is the line through it, every line consists of the values at the points along it, and the array has at every place the value at the point with these mid points.", "quantifier": "all meshes, planes, points, energies and times", "why_tests_cant": "Tests look at each function on its own with one small mesh; that two functions find the same voxel must hold for every mesh and every point.", "anchors": ["meshtal_analysis.py: extract_slice", "meshtal_analysis.py: extract_line", "meshtal_analysis.py: pick_point", "meshtal_analysis.py: convert_to_3d_array"]}
{"id": "C300", "title": "Cells without a material card are noticed", "statement": "For an MCNP input that was read, check_cell_mat_exists tells of every cell whether it is all right: it is true if the cell is void or the data block has a card of its material, and false otherwise.", "quantifier": "all files, all cells", "why_tests_cant": "Tests check single cells against a dictionary made by hand; the claim joins the reading of the data block with the check, for every arrangement of cards.", "anchors": ["mcnp_input_reader.py: check_cell_mat_exists", "mcnp_input_reader.py: get_mat", "mcnp_input_reader.py: get_material_numbers", "mcnp_input_reader.py: read_mcnp_input"]}
{"id": "C301", "title": "The order of the entries of a configuration has no influence", "statement": "A run with a configuration file whose entries are in another order is the same run: the same values are read or the same exception is raised, and the same files are left.", "quantifier": "all configurations, all orders of their entries, all file systems", "why_tests_cant": "A test uses one configuration file; ten entries can be written in more than three million orders, and the entries that are refused may stand anywhere.", "anchors": ["r2s_cell.py: read_config", "r2s_cell.py: main"]}
{"id": "C302", "title": "Each mesh of a mesh tally file is read on its own", "statement": "What is read for one mesh does not depend on the other meshes of the file: it is the same as from a file with this mesh alone, and replacing one mesh or taking it out leaves all others as they were.", "quantifier": "all mesh tally files, all meshes in them, all replacements of one mesh", "why_tests_cant": "The tests read a few fixed files; that nothing of one mesh is left in the next one is a statement about all pairs of meshes.", "anchors": ["meshtal_analysis.py: read_meshtally_file", "meshtal_analysis.py: convert_to_df"]}
{"id": "C303", "title": "The cells of a material and at a surface are found", "statement": "In a cell block that was read, every cell is stored once and under its number; cells_with_mat has a cell exactly if its card names the material, and cells_with_surface has it exactly if the surface stands in its geometry, with either sense.", "quantifier": "all cell blocks, all cards in them, all materials and surfaces", "why_tests_cant": "The tests search in a dictionary of a few cells made by hand; the claim joins the reading of cards in every spacing with the search.", "anchors": ["mcnp_input_reader.py: cells_with_mat", "mcnp_input_reader.py: cells_with_surface", "mcnp_input_reader.py: process_cell_block", "mcnp_input_reader.py: process_geom"]}
{"id": "C304", "title": "Tables and points that were written can be read back", "statement": "The file of csv_out, read line by line and cut at the commas, has the number, cell, result and error of every row; the file of output_points, cut at the blanks, has the coordinates and the value of every point.", "quantifier": "all tallies and points, all texts of their values, all file systems", "why_tests_cant": "Whether a file can be read back depends on the text of every value; tests write a few numbers.", "anchors": ["output_utilities.py: csv_out", "output_utilities.py: output_points", "neut_utilities.py: write_lines", "neut_utilities.py: get_lines"]}
{"id": "C305", "title": "The file of lost points belongs to the output that was read", "statement": "After output_lost_points has read an output, the .3d file of the given name holds the points of this output: one line for each lost particle, from which the coordinates are read back without loss, and no points of any other output.", "quantifier": "all outputs, all numbers of lost particles, all files left by earlier runs", "why_tests_cant": "Tests start in an empty folder; what earlier runs left has to be part of the statement.", "anchors": ["lost_points.py: output_lost_points", "output_utilities.py: output_points"]}
{"id": "C306", "title": "Energies outside the group structure are noticed", "statement": "An energy for which the group structure has no group is not put into any group: the program that writes a fluxes file refuses it and writes nothing.", "quantifier": "both group structures, all energies above and below them", "why_tests_cant": "Tests use energies inside the structure or check one function alone; that no part of the program refuses is a statement about all energies.", "anchors": ["fispact_fluxes_writer.py: get_group_pos", "fispact_fluxes_writer.py: check_upper_bound", "fispact_fluxes_writer.py: create_fluxes_data"]}
{"id": "C307", "title": "Places, energies and times outside a mesh are noticed", "statement": "pick_point, extract_slice and extract_line return no value for a place outside the mesh, and none for an energy or time that the mesh does not have.", "quantifier": "all meshes, all places, energies and times", "why_tests_cant": "Tests look up places inside the mesh; the places outside have no end.", "anchors": ["meshtal_analysis.py: pick_point", "meshtal_analysis.py: extract_slice", "meshtal_analysis.py: extract_line", "meshtal_analysis.py: find_nearest_mid", "meshtal_analysis.py: filter_energy_time"]}
{"id": "C308", "title": "The sections of an xsdir are kept apart", "statement": "An entry that stands in one section of an xsdir file appears in that section of the XSDir object only: entries of the thermal scattering data are not in the directory, and entries of the directory are not in the thermal scattering data.", "quantifier": "all xsdir files with these sections in any order", "why_tests_cant": "Each section is tested with a file that has little else; the combinations of sections are as many as the files.", "anchors": ["xsdir_reader.py: _process_directory", "xsdir_reader.py: _process_thermal", "xsdir_reader.py: from_file"]}
{"id": "C309", "title": "Upper and lower case letters of an xsdir mean the same", "statement": "The data path and the sections of an xsdir file are found whether their keywords are written in upper or in lower case letters.", "quantifier": "all xsdir files, all ways to write their keywords", "why_tests_cant": "A test writes a keyword in one way or two; the claim is about each of its letters in every file.", "anchors": ["xsdir_reader.py: _process_datapath", "xsdir_reader.py: _process_awr", "xsdir_reader.py: _process_directory"]}
{"id": "C310", "title": "Energies and times outside the bins of a tally are noticed", "statement": "time_slice, energy_slice and find_peak_time give no result for an energy or time outside the bins of the tally.", "quantifier": "all tallies with energy and time bins, all energies and times", "why_tests_cant": "Tests ask for energies and times of the bins; those outside have no end.", "anchors": ["mcnp_analysis.py: time_slice", "mcnp_analysis.py: energy_slice", "mcnp_analysis.py: find_peak_time"]}
{"id": "C311", "title": "Numbers of an MCNP input in the short form of Fortran are read", "statement": "A density or a fraction that is written with an exponent but without the letter E, such as 1.5-3 for 1.5E-3, is read as the number that MCNP reads.", "quantifier": "all inputs with such a number, at every place of a material card and in every cell", "why_tests_cant": "Tests write numbers as Python writes them; the other forms that MCNP allows are without end.", "anchors": ["mcnp_input_reader.py: process_material_line", "mcnp_input_reader.py: read_material_lines", "mcnp_input_reader.py: process_cell_block"]}
{"id": "C312", "title": "Small results of MCNP are read", "statement": "Results and errors below 1E-99, which Fortran writes without the letter E (1.23456-101), are read from energy bins of an MCNP output and from mesh tally files.", "quantifier": "all outputs and mesh tally files with such a number, at every place", "why_tests_cant": "The files of the tests have no number that small; one of them among millions of voxels is enough.", "anchors": ["mcnp_output_reader.py: process_energy_lines", "meshtal_analysis.py: convert_to_df", "meshtal_analysis.py: read_meshtally_file"]}
{"id": "C313", "title": "Nuclides listed more than once keep their whole fraction", "statement": "The fraction of a nuclide in the composition of a material is the sum of the fractions given for it on the material card.", "quantifier": "all material cards that can be read, all nuclides, listed any number of times", "why_tests_cant": "The tests have cards with each nuclide once; the ways to list one again are as many as the cards.", "anchors": ["mcnp_input_reader.py: process_material_line", "mcnp_input_reader.py: read_material_lines"]}
{"id": "C314", "title": "Cells at surfaces without a card are noticed", "statement": "An MCNP input in which a cell refers to a surface that has no surface card is not read as if it were complete.", "quantifier": "all MCNP inputs, all cells and all surfaces they refer to", "why_tests_cant": "The test inputs have a card for each surface; an input with one missing is not among them.", "anchors": ["mcnp_input_reader.py: read_mcnp_input", "mcnp_input_reader.py: process_surface_block", "mcnp_input_reader.py: process_cell_block"]}
{"id": "C315", "title": "Tallies of cells without a card are noticed", "statement": "An MCNP input in which a tally refers to a cell that has no cell card is not read as if it were complete.", "quantifier": "all MCNP inputs, all tallies and all cells they refer to", "why_tests_cant": "The test inputs have a card for each cell of a tally; an input with one missing is not among them.", "anchors": ["mcnp_input_reader.py: read_mcnp_input", "mcnp_input_reader.py: read_tally_lines", "mcnp_input_reader.py: process_data_block"]}
{"id": "C316", "title": "Larger solids have larger volumes and areas", "statement": "Lengths, areas and volumes of circles, balls, cylinders and cones do not become smaller when a radius or a height becomes larger, and become larger unless the solid stays flat; a ball has the greatest volume for its surface, a cylinder never more.", "quantifier": "all radii and heights that are not negative", "why_tests_cant": "The tests compare single values; the order of all pairs of sizes is not among them.", "anchors": ["geom_utils.py: perim_circle", "geom_utils.py: area_circle", "geom_utils.py: area_cyl", "geom_utils.py: area_sphere", "geom_utils.py: area_cone_surf", "geom_utils.py: volume_sphere", "geom_utils.py: volume_cyl", "geom_utils.py: volume_cone"]}
{"id": "C317", "title": "Lines that were wrapped can be wrapped again", "statement": "If the words of wrapped lines are wrapped again, to the same or another width, the result is the same as that of wrapping the tokens to this width in the first place.", "quantifier": "all prefixes of one word, all lists of tokens of at most one word, all widths, all continuations", "why_tests_cant": "The tests wrap a few lists once; wrapping again to any width is not among them.", "anchors": ["output_utilities.py: wrap_tokens"]}
{"id": "C318", "title": "Groups of a finer group structure lie inside those of the coarser one", "statement": "If an energy is looked up in two group structures and the boundaries of one are among those of the other, the group found in the finer one lies inside the group found in the coarser one, and energies of one fine group are in one coarse group.", "quantifier": "all pairs of descending group structures of which one refines the other, all energies in the range of the coarser one", "why_tests_cant": "The tests look up a few energies in one structure; relations between structures are not among them.", "anchors": ["fispact_fluxes_writer.py: get_group_pos"]}
{"id": "C319", "title": "The functions that search agree with each other", "statement": "A line that starts with a text is not before the first line that has the text; a text that is in no line starts no line; a longer text is not found earlier than a part of it; lines in front that are not searched for only shift the result; the first zero and the first other value of a list follow from each other.", "quantifier": "all texts, all lists of lines, all lists of values", "why_tests_cant": "The tests call each function on a few lists; relations between the functions for all lists are not among them.", "anchors": ["neut_utilities.py: find_line", "neut_utilities.py: find_ind", "neut_utilities.py: find_first_zero", "neut_utilities.py: find_first_non_zero"]}
{"id": "C320", "title": "Numbers of cards have no other characters than digits", "statement": "A cell or surface card whose number, or number of a material, has a character that no number of MCNP has is refused.", "quantifier": "all cell and surface cards, all characters in any place of the number", "why_tests_cant": "The tests have cards with proper numbers; the ways to write a wrong one have no end.", "anchors": ["mcnp_input_reader.py: process_cell_block", "mcnp_input_reader.py: process_surface_line"]}
