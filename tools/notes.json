{
 "C07": "Violated as stated: the loop never ends when the chain of first elements reaches an empty list (C07_violated). The partial theorems characterise the result exactly in all other cases. C07_empty_violated and C07_cases: so for every such list, and there is no third case.",
 "C08": "Violated for files containing \\r: reading normalises newlines, so a CRLF file is rewritten even when nothing matches (C08_violated). Holds for every file without \\r; for the others the exact effect is stated. C08_carriage_return_violated: every file with \\r is changed.",
 "C13": "Violated: a token that fits the width alone is emitted behind the continuation prefix without checking again, and a long prefix is never broken (C13_violated). The partial theorems show these are the only two ways a line can be too long. C13_prefix_violated, C13_token_violated: they always do; C13_exact gives the exact condition for a prefix not shorter than the continuation text.",
 "C18": "Violated for every object: html_output ends in ut.write_html, which does not exist, so it always raises and never writes (C18_violated; with fewer than ten test results it raises IndexError before, C18_tests_violated). The lines it makes are a well formed page with a section for each tally (C18_lines_partial).",
 "C23": "Violated: a file without the 'fispact run time' line (for instance truncated or empty) ends in UnboundLocalError, not IOError (C23_violated). The partial theorem shows this is the only wrong outcome. C23_other_file_violated: so for every file without that line and without the ' FD ' line.",
 "C26": "Violated: the line is lower-cased before the path is cut out, and the path stops at a second '=' (C26_violated). The partial theorem states the exact result. C26_path_violated: so for every path with a capital letter or a second '='.",
 "C27": "Holds for every section with at least one history (C27_decode_partial); an empty section gives [None] (C27_violated).",
 "C28": "Field-wise equality holds between events; comparing with a non-event returns the class NotImplementedError, which is truthy (C28_violated).",
 "C31": "Six pairs are proved inverse. Bq/Ci (2.703e11 and 3.7e-12; exponents wrong) and s/year (365.25 against 365 days) are proved NOT inverse for every non-zero value (C31_violated).",
 "C32": "Year/day/hour/second chains, linearity and monotony hold; shake_to_ms is a factor 1000 too large against shake_to_second (C32_violated).",
 "C37": "Holds for spectra whose values never decrease; the code tests the flux values, not the energies, for order and refuses every other spectrum (C37_violated). C37_not_ascending_violated: so for every such spectrum.",
 "C38": "Proved for the 709 structure. The 162 structure is tabulated in eV, so energies in MeV fall into its lowest group (C38_violated).",
 "C48": "Holds whenever at least one nuclide is active, or pandas returns an empty result for apply on an empty frame; older pandas versions raise ValueError there, so the empty case is a parameter of the model.",
 "C49": "Violated: the limits file given by the caller is ignored in favour of data/t1.txt (C49_violated). Partial: the first passing step with respect to the default file. C49_path_violated: the name of the file makes no difference for any inventory.",
 "C50": "Violated for Z = 118 and A = 294: the default view leaves them out and a larger view raises IndexError (C50_violated). Exact for every other view. C50_error_violated gives the exact condition for the IndexError; C50_oganesson_violated: nothing of Z = 118 is ever shown by default.",
 "C129": "Violated for every non-empty inventory of the reader: column A is text there and int + str raises TypeError. Proved: it succeeds exactly if no mass number is text (C129_integers_partial).",
 "C130": "Violated: the lib argument is never used. Proved: every line is identifier and fraction without a suffix (C130_lines_partial).",
 "C52": "Holds for equally spaced bounds (C52_uniform_partial) and for bounds given as numbers that start at 0 (C52_average_partial). For a non-uniform mesh read from a file the call always raises TypeError (C52_violated), and ValueError whenever an axis with numeric bounds does not start at 0 (C52_numbers_violated) or the first axis has no bounds (C52_no_bounds_violated). Without mid points the average is no number (C52_no_mids_violated).",
 "C54": "Holds for equal intervals and points strictly inside a voxel. With unequal intervals the nearest mid point need not belong to the voxel that contains the point (C54_violated). C54_unequal_violated, C54_unequal_before_violated: every mesh with two neighbouring intervals of different widths has such points.",
 "C55": "Holds for every request other than 0; the request 0 is treated as no request (C55_violated). C55_zero_violated: for every table.",
 "C56": "The values and the plane names are right; the relative errors are selected with the wrong axis and come out transposed (C56_violated). For every complete mesh: transposed if the two directions of the plane have the same mid points (C56_transposed_violated), empty if they have none in common (C56_no_errors_violated), ValueError if they have some in common (C56_ragged_violated); right only if the errors are symmetric (C56_right_only_if_symmetric).",
 "C59": "Holds for six-column meshes; five-column meshes always raise UnboundLocalError (C59_violated).",
 "C60": "Violated: relative errors are added in quadrature without weights (C60_violated). The partial theorem shows the reported error is an upper bound and when it is exact.",
 "C61": "Holds for six-column meshes; five-column meshes with data always raise IndexError (C61_violated).",
 "C62": "Holds when there is a zero voxel; otherwise KeyError instead of 0 (C62_violated).",
 "C64": "Holds when only the first mesh of the file is of energy type and has no total rows. An energy mesh after the first one always raises ValueError (C64_violated), as does a total row in an energy mesh (C64_violated_total). Rows of a time mesh whose time bin ends at 0 are left out as if they were totals (C64_time_zero_violated).",
 "C65": "Holds for meshes followed by another mesh (the data stay unconverted); a request for the last mesh returns the list of all meshes (C65_violated).",
 "C68": "Location and the ValueError for a missing banner are proved; a missing '0 Mass' line raises StopIteration instead of ValueError (C68_missing_end_violated). C68_all_violated: for every file with the banner.",
 "C69": "Consistency and preservation are proved for every base column other than time_days and time_hours; with those the base is overwritten (C69_overwritten_base_violated; for all tables C69_days_violated and C69_hours_violated). The year has 365.4 days where neut_constants.years_to_days has 365.25 (C69_year_length_violated).",
 "C74": "The statement about names is for lines whose only white space is blanks.",
 "C76": "'First word' is the text up to the first blank after stripping, between the first and second '='.",
 "C132": "Violated: any FISPACT 07 summary with rows raises TypeError (text times float); only the empty summary is accepted.",
 "C133": "Rows and lengths are proved exactly; an empty line in the lower half raises IndexError instead of ValueError, in every table (C133_any_violated; instance C133_empty_line_violated).",
 "C15": "Violated when the first token does not fit behind the card name: the name stands alone on its line and get_card_lines does not find it (C15_bare_name_violated). Proved for every other case; C15_material shows the material reader accepts the bare name. C15_first_token_violated: so for every such card.",
 "C79": "Violated at exactly 80 characters: the line is reported although it is not longer than 80 (C79_violated). Proved for files without 80 character lines, and the exact behaviour in C79_reports_from_80. C79_eighty_violated: every such line without comment.",
 "C84": "Violated: an undefined material and a material card without entries give the same object (C84_undefined_violated). Distinguishable from every defined material with at least one entry.",
 "C85": "Violated: a continuation line never adds surfaces (C85_surfaces_lost_violated, for all lines), and an importance for two particles is stored for the first only. Proved for cards whose continuation lines hold one importance each.",
 "C88": "Violated for blank lines with five or more blanks, which count as continuation lines: before the first card the block is refused (C88_blanks_before_violated), behind a card they add an empty parameter (C88_blanks_behind_violated); instances C88_blank_line_violated, C88_separator_violated. Proved for all other layouts.",
 "C89": "Violated for every surface card with an inline comment separated by a blank (C89_violated). Holds for cards without '$'.",
 "C90": "The flags are kept in attributes other than the documented ones (C90_documented_flags_violated). Text and presence tests are proved exactly.",
 "C92": "Violated by every file containing mphys: each run inserts another 'c ' (C92_violated). Proved for files without it.",
 "C136": "Violated for a comment line consisting of the letter alone (C136_bare_comment_violated). Proved for comments with a blank behind the letter. C136_bare_violated: everything behind such a line is lost.",
 "C93": "Five blanks are required behind '1tally', so numbers of five to eight digits are never found (C93_long_numbers_violated). What is returned is proved exactly, and numbers of up to four digits are always found.",
 "C105": "A file of exactly 101 lines is searched beyond its hundredth line (C105_run_date_violated). Proved for every other length; the version is proved for all inputs.",
 "C100": "Blank lines other than exactly one blank enter the list as an empty volume, and a number written directly behind 'cell:' is lost (C100_blank_line_violated, C100_no_blank_violated). The lists are proved for lines in the usual layout; when IndexError is raised is proved for all inputs.",
 "C101": "Violated for every cell but the last: the columns of the following cell are glued to its matrix (C101_cells_mixed_violated). Proved for the last or only cell.",
 "C103": "A blank at the end of the result line or two blanks between value and error make it unreadable (C103_blanks_violated). Proved for entries separated by one blank; position and its errors are proved for all files.",
 "C104": "The cell is always reported as 2, and tallies of other cells cannot be read (C104_cell_violated, C104_other_cells_violated). Proved for cell 2 with a single result or with energy bins.",
 "C138": "Violated: results do not depend on the order in which the set of surfaces is listed (C138_surface_order_violated). There is no case with several surfaces in which the order is guaranteed; proved if all surface lines name one surface.",
 "C139": "Violated by every file with user bins: ValueError (C139_user_bins_violated). Proved without user bins: energy bins alone and energy with time bins.",
 "C143": "A cell whose line is blank or contains 'total' is skipped silently, which shifts the later results (C143_skipped_violated). Proved for type 4 and other cell tallies when every cell has a value line.",
 "C113": "Violated: the parameter of line 142 divides only the second term, so the returned point is on the plane iff d = 0 or the segment advances by 1 along the normal (C113_not_on_plane_violated). When a value is returned is proved in full (C113_defined); correct point proved for planes through the origin.",
 "C114": "Violated: NaN for parallel planes whose normals have first component 0, 0 for opposite normals, and the caller's second normal is overwritten. Proved for normals of the same direction with non-zero first component, and for intersecting planes.",
 "C116": "Violated: a plane that misses the sphere on the side opposite to its normal gives a NaN radius instead of ValueError. The circle itself (C116_circle) is proved in full, definedness for the remaining planes.",
 "C117": "Violated: intersecting planes whose line of intersection is parallel to z = 0 raise LinAlgError. Proved for all others; parallel planes always raise.",
 "C118": "Violated: o is never added back, so o moves to 0 and a full turn shifts by -o. Distances, additivity of angles and the explicit image are proved for every o; identity, full turn and fixed point for o = 0.",
 "C123": "Violated: a zero leg gives 0 instead of the other leg. Proved for non-zero legs.",
 "C126": "Violated: every point with x = 0 raises ZeroDivisionError. Round trips proved for x /= 0; cylindrical/spherical round trips in full (origin: NaN polar angle).",
 "C106": "Every key of the file, every default but one, unknown keys and missing files are proved. Violated: the constructor misspells mc_output (r2s_cell.py:18), so there is no default for it and reading it raises AttributeError.",
 "C109": "Nothing outside the folder and its parents changes (also for failing runs), the contents after success and the missing FILES file are proved; the contents need a folder not called 'collapse' or 'array', which is so for the folders made by main. Violated: in a folder called 'collapse' the collapse input is overwritten by the empty main input. C109_copy: the copy has the former contents of the source wherever that lies, unless it is one of the inputs written before; a FILES file that is in place already stops the set-up (C109_in_place_violated).",
 "C110": "Proved: with no request the cells are those of all neutron tallies of type 4. Violated: the tallies (and cells) of the configuration are never looked at. C110_ignored: for every configuration.",
 "C111": "A fatal text, a missing entry or file for the MCNP output or input, and unreadable files are proved to raise and to leave the file system as it was. Violated: a missing files_file entry raises only after the folder of the first cell was made.",
 "C144": "Only the missing log file is reported. Violated: the log is read but never looked at; every existing log gives 0.",
 "C148": "Proved for one target and increasing times, and for given limits. Violated: with several targets the window lies around the median of the peaks (C148_window), and a peak is hidden exactly if it is more than window bins away from it (C148_far_violated; C148_two_violated: all peaks hidden).",
 "C149": "Proved for all targets without the total, and for one target with the total. Violated: with the total the limit is 1.05 times the total in the bin of the median peak, and everything larger is cut off (C149_cut_violated): the total itself by any factor (C149_total_violated), and with several targets a target (C149_targets_violated).",
 "C150": "The cells are proved for one time fewer than columns (C150_cells). Violated: with one time per column matplotlib refuses the data (C150_shape_violated), and the labels of MCNP are upper boundaries, so in the place of every bin the result of the bin before is shown (C150_late_violated). That the last energy row and the last two columns are never shown follows from the shape.",
 "C151": "Proved for all types but 1 (results with more than one number), for type 1 with angle bins on one surface, and success for tables of type 2 and 4; a wrong number of values raises (C151_mismatch). Violated: currents without angle bins and tables of heating tallies always raise TypeError; of a table with angle bins the keys are drawn. Results that are matrices are C228.",
 "C152": "Position and height are proved, for plain spectra of more than one value, and that they are drawn if no bar has a negative length. Violated: the length is that of the bin before; negative values with an error, tallies that are tables and currents in several directions (C152_angles_violated) raise.",
 "C153": "The limit is characterised. Violated: it is the upper edge of the first bin with a result, which is therefore always cut off (C153_all_violated), and only the last curve is looked at (C153_other_violated).",
 "C154": "Proved for results that are lists of spectra. Violated: plain spectra raise ValueError, tables KeyError; if one of the two is plain, its first number is used for all bins.",
 "C157": "Exact and measured conversions are proved apart from activities and shake_to_ms. Violated: both activity conversions are off by more than 10^20; shake_to_ms gives microseconds.",
 "C158": "Proved: the figure is the pairs before the first zero of the column, scaled and labelled as stated (C158_points_partial, C158_label, C158_arguments). Violated: a column that starts with zero raises ValueError, values after a zero are never drawn, and any vertical or horizontal line raises AttributeError because plt.vline and plt.hline do not exist.",
 "C160": "Proved: wedges exactly for the nuclides above the threshold, each the fraction of the sum of those shown. Violated: the fraction is not the percentage of the table, because nuclides below the threshold are left out of the circle. C160_shares_violated: every wedge is then too large.",
 "C165": "The lists are read when they fit on one pair of lines (C165_areas_partial); C165_more_violated: any further pair of surface and area lines is never read, so tallies with more surfaces than fit on one line lose the rest.",
 "C169": "First mt and first mx card of the material (C169_cards_partial); C169_second_mx_violated: a further mx card of the same material for another particle is not read.",
 "C170": "Right unless both cards are present (C170_type_partial); C170_kcode_violated: every input with an sdef card, kcode or not, is called a fixed source calculation.",
 "C171": "C171_violated: the attribute is set to True in the constructor and never changed, also for atom fractions. C171_weight_partial: right for materials given by weight. C171_atoms_violated: for every material given by atoms.",
 "C172": "C172_violated: the five checks are stubs that always return True; surfaces with no entries are read and pass. C172_accepts_partial: no valid surface is rejected. C172_count_violated: for every surface with a wrong number of entries.",
 "C174": "C174_violated: the line break between the number of directory entries and the number of thermal tables is missing. C174_lines_partial: the first three lines.",
 "C175": "Cells, values and, on axes with at least two equal voxels, the place of the cells (C175_cells_partial), errors of the call (C175_mismatch, C175_plane, C175_create). Violated: the axis limits cut off half of the outer voxels (C175_limits_violated), voxels of different widths are drawn between the mid points of their centres (C175_nonuniform_violated), a single voxel has no width (C175_single_violated), and the title names the requested position (C175_title_violated).",
 "C177": "Right for meshes whose volume can be computed (C177_counts_partial); C177_violated: printing a mesh from a file with non-uniform first axis raises TypeError.",
 "C179": "Violated: all three functions are stubs that return None for every input (C179_violated); that is right only where there is nothing to find (C179_nothing_partial, for comments). C179_any_violated: for every input.",
 "C180": "Right for numpy below 1.24 and a positive maximum (C180_half_partial). Violated: np.float no longer exists, so the call raises AttributeError (C180_numpy_violated); a mesh without scores becomes NaN (C180_zero_violated). Normalising again changes nothing if the largest value is positive (C180_again_partial), but turns negative values round (C180_again_violated).",
 "C181": "Violated for every input: ut.setup_logging does not exist, so the call raises AttributeError before anything is read or written (C181_violated).",
 "C185": "Right if the summary has a cooling row (C185_steps_partial); without one all steps are returned (C185_violated).",
 "C188": "Right for positive numbers (C188_positive_partial); zero and negative numbers are accepted as well (C188_violated).",
 "C189": "Right if the last entry is negated by the caller (C189_negated_partial); with the entry itself the value is off by twice the entry (C189_violated), and points inside a sphere get the sense of the outside (C189_sense_violated).",
 "C190": "Right for three blanks after the energy and one after the result (C190_lines_partial); single blanks raise IndexError (C190_violated).",
 "C193": "Violated: both files are empty, nothing is run or removed (C193_violated), read_summary returns 1 (C193_summary_violated). Only the error for an unwritable path holds (C193_error_partial).",
 "C200": "Violated: U230+, Th232sec, U235sec and U238sec are not names of nuclides as FISPACT prints them (C200_names_violated), so U230 is judged by the limit for all others (C200_u230_violated). All other entries are (C200_names_partial), and the remaining parts hold (C200_read, C200_decided, C200_order, C200_unlisted).",
 "C201": "Violated for every section of pairs in which no ratio has the same text as an identifier: no nuclide is found under its identifier, the second word of a line becomes the key (C201_pairs_violated). Right for lines of a leading word, an identifier and a ratio (C201_leading_partial).",
 "C202": "Violated by every continued entry: the + is kept as a field and the continuation becomes an entry of its own (C202_continued_violated). Right for entries on one line (C202_single_partial).",
 "C203": "Violated by every mid point that needs more than 24 binary digits, such as 1.4: its whole layer of the array stays 0 (C203_layer_violated, C203_seven_fifths). Rows whose coordinates are stored exactly are found at their place (C203_exact_partial).",
 "C204": "Violated: the result consists of the errors, the error of the values without the first one of every block (C204_time_violated), and the first values appear as energies (C204_energies_violated). The times are right (C204_times_partial).",
 "C205": "Violated by every file with more than three lines between the last cell and the line of the minimum source weight, as when table 70 is printed: these lines become rows (C205_rows_violated). Right with exactly three lines (C205_rows_partial).",
 "C206": "Right for words that are numbers joined by colons, with brackets and signs outside, or do not start with a digit (C206_cell_partial, with material, density, comments and importances). Violated: a bracket or sign that stands alone (C206_lone_bracket_violated) or brackets inside a word, as in (1:2)(3:4) (C206_adjoining_brackets_violated), make the block unreadable; in 1:-2 the second surface is stored with its sign (C206_union_sign_violated).",
 "C207": "Right if the comment is one word, or its other words start with no digit, dollar sign or importance (C207_partial). Violated: numbers in the comment become surfaces (C207_comment_number_violated), words such as 2mm or simple make the block unreadable (C207_comment_word_violated, C207_comment_imp_violated), and a comment separated by a blank is stored as the empty text (C207_comment_lost_violated).",
 "C208": "Right for imp:n=1 (C208_partial). Violated: a blank instead of (C208_blank_violated) or behind the equals sign (C208_equals_blank_violated) makes the block unreadable; imp:n,p=1 is stored for n only (C208_shared_violated).",
 "C209": "Right if no word behind the parameter starts with a digit (C209_partial). Violated: further values of the parameter are stored as surfaces (C209_parameter_values_violated).",
 "C210": "Violated by every such card: the block cannot be read (C210_like_violated, C210_violated).",
 "C211": "Right in column 1 (C211_partial) and for surfaces (C211_surface_partial). Violated for cells (C211_indented_lost_violated), materials, tallies and the mode card (C211_data_card_violated): the card is passed over.",
 "C212": "The sign does no harm on a cell card (C212_partial). Violated: the next line is taken for another cell (C212_ampersand_digit_violated) or dropped (C212_ampersand_dropped_violated), and a material card cannot be read (C212_material_violated).",
 "C213": "Right without such cards (C213_partial). Violated: cards for all tallies are not looked for (C213_default_bins_violated).",
 "C214": "Right for the 37 known types, with a transform and with a white boundary (C214_partial). Violated: reflecting (C214_reflecting_violated) and periodic boundaries (C214_periodic_violated), surfaces given by points (C214_points_violated) and any other second entry (C214_second_entry_violated) make the block unreadable.",
 "C215": "Right for importances on cell cards (C215_partial). Violated: the data block is not used (C215_data_card_violated).",
 "C216": "What is accepted is a particle (C216_partial). Violated: 28 of the 37 particles are rejected, among them deuterons, tritons and alphas (C216_particles_violated).",
 "C217": "Right for plain cards (C217_partial). Violated: cards with a sign in front are missing (C217_starred_violated), and a letter behind the number makes the input unreadable (C217_ring_violated, C217_file_violated).",
 "C187": "Right if some row is not empty and all rows have the same length (C187_convert_partial; C187_rows for all data with a row that is not empty). Violated: no rows at all give a table of missing values (C187_empty_violated), and rows that are too short are filled with missing values if one row has the right length (C187_short_violated).",
 "C219": "Proved: fluxes of cells and surfaces are named by their objects (C219_objects_partial), names of the caller are used in order if no tally has angle bins (C219_given_partial), one current by angle is named by the lower boundaries of its bins (C219_angles_partial), the label of the axis (C219_axis). Violated: angle bins discard the names of the caller, a second tally with angle bins renames the curves of the first, spectra of other types and currents of several surfaces are not named, and two tallies of the same object get the same name. Error bars are left out.",
 "C220": "Violated: every blank line is a row of NaN (C220_blank_violated). Proved: the number of rows (C220_rows_partial), and that the empty rows change no slice, point, line with a common coordinate, count of zeros or array of an energy or time mesh (C220_slice, C220_point, C220_line, C220_zeros, C220_array).",
 "C221": "The points are proved for all six columns, also for the cooling phase alone (C221_cooling, C221_cooling_partial), and the labels for two. Violated: the labels with units for heat, doses and tritium belong to names that the reader does not give its columns, so asking for them raises ValueError (C221_names_violated) and the actual columns are labelled with their bare names (C221_label_violated); asking for the cooling phase of a summary without one raises ValueError (C221_no_cooling_violated).",
 "C222": "Proved without the total and for the activity and the dose rate with it. Violated: for every other column of the inventory the total raises KeyError, and the axis says bq/kg whatever is drawn.",
 "C155": "Proved for lists of equal length and errors that are not negative, and the refusal of any other number of errors but one. Violated: one error for many values is not refused, matplotlib repeats it.",
 "C223": "Checks, title and axes are proved; the scale for values that are not all within 1e-8 of each other. Violated: 1e-8 is added to the lower end, so the smallest value is never on the scale, and for values closer than that the ends are reversed.",
 "C224": "Ground states stand in their cells. Violated: isomeric states such as Al26m have a text for a mass number that is no number, so they stand at A = 0 or, in a view above 0, not at all. Views beyond the array are C50.",
 "C225": "The five quantities are drawn when the shown values add up to more than 0. Violated: the columns of percentages and names pass the check and raise KeyError.",
 "C226": "Steps with activity are drawn. Violated: a step without activity has an empty spectrum and raises ValueError.",
 "C227": "Symbols of two letters are right. Violated: a symbol of one letter keeps a blank and is no key of Z_dict.",
 "C228": "Holds for as many time bins as energy bins, all of the same width. Violated: the widths are laid along the time bins, so other widths give wrong values, other numbers of time bins raise ValueError, and a single time bin is drawn as one curve per energy. Without error bars; a zero width divides by zero.",
 "C229": "The names and levels agree with the limits file, and for one kilogram of material the first out of scope step is returned. Violated: the mass in the file is ignored, so steps of heavier materials are passed over and steps of lighter ones returned wrongly. Steps without active nuclides as in C48.",
 "C231": "In files with several kinds of particles the particle is right. Violated: the cell of no event is read (source type, nucleus, surface, ... are stored), and in files with one kind of particle the particle is a cell, reaction, angle or branch.",
 "C232": "The types read are those of the file shifted by one event, with the mark of the end behind the last (C232_shifted_partial). Violated: every event has the type of the next one.",
 "C233": "Lines of histories with two or three entries and all variables are read. Violated: positions only raises ValueError, four to eight entries raise AttributeError.",
 "C235": "Violated: such a number in the totals or in the inventory of any time step after the first (C235_step_violated, C235_file_violated), in the dominant nuclides, the composition or the spectrum of a step with activity (C235_active_violated) or in the summary (C235_summary_violated) and nothing of the file is read. Only the number of fissions and the gas contents do no harm; their text is kept instead of the value (C235_texts_partial). Assumes that float rejects numbers without E, as Python's does.",
 "C236": "Violated: is_cooling stays False and flux_amp 0 for every step (C236_cooling_violated, C236_flux_violated), num_cool_step 0 and time_days empty for every output (C236_output_violated). Right only for steps that are not cooling and have no flux (C236_default_partial).",
 "C237": "Violated: the columns exist with one entry for each row (C237_columns_partial), but every entry is None whatever is printed (C237_values_violated).",
 "C238": "Rows with more than six columns, such as volumes, are refused with ValueError (C238_columns_partial). Violated: a file without headings of Cartesian columns - cylindrical meshes, matrices - is read as one mesh without values (C238_empty_violated), and if two or more meshes have no such heading, meshes are lost (C238_lost_violated).",
 "C239": "Complete, outside, succeeds and again: for every tally and configuration, with the folders of the cells free where success is claimed. The activation code itself and the plots are not run by this function.",
 "C240": "Energies, times and values are those printed (C240_shape) and time_slice works with or without the total (C240_time_slice). energy_slice and plot_ET_heatmap work with the column of the total only (C240_energy_slice_partial, C240_heat_map_partial, C240_read_partial for point detectors); violated without it, ValueError and TypeError (C240_no_total_violated). The cells of the heat map are those of C150.",
 "C241": "For every path and file system, reader by reader. Names that lead to the same file (links, ./) are different paths in the model, and the decoding of bytes is not modelled.",
 "C242": "For every path and file system, writer by writer. A failure in the middle of the writing (a full disk, a character the encoding lacks) is not modelled, and names that lead to the same file (links, ./) are different paths.",
 "C243": "The result is that of the row by row description (C243_result, which C45 is about), and a second call gives the same and changes nothing more (C243_again). Violated: the columns Z, ZAID and atoms_norm are added to the caller's table (C243_changed_violated), also when the call fails (C243_failed_violated); every other column is as it was (C243_others_partial).",
 "C244": "Holds for every file with at least one history (C244_mean_partial). Violated by files without histories: the reader returns a list holding None, and the mean raises AttributeError (C244_none_violated).",
 "C245": "Violated when two mid points are rounded to the same number: picking a point of one voxel returns the values of both (C245_two_voxels_violated, with 16777217 and 16777218 as an instance). Holds whenever the rounding tells the coordinates apart (C245_point_partial, C245_line_partial, C245_slice_partial), which rounding to nearest does for numbers further apart than 1 / 2^24 of their sum (C245_apart_partial). That numpy compares a float32 column with a Python float in float32 is part of the model.",
 "C246": "Holds for six-column meshes whose rows are in the same order; the array also for a square root with sqrt(0) = 0. add_mesh adds by row label and never compares the coordinates, so meshes of equal bounds with rows in another order get sums in the wrong voxels (witness). Five-column meshes cannot be added (C59).",
 "C247": "Right for everything but importances: data block (C247_data_partial), surfaces (C247_surfaces_partial), cells up to importances (C247_cells_partial, for a number parser that ignores case as float does) and the whole input (C247_input_partial). Violated: IMP:N=1 is stored for a particle N and not for n (C247_importance_violated).",
 "C248": "Right for lines whose first word starts in column 1 and is followed by a blank, continuation lines and empty lines: cards and mode (C248_card_partial), materials (C248_material_partial), tallies (C248_tally_partial), numbers (C248_numbers_partial), surfaces (C248_surfaces_partial), cell cards even with tabs (C248_cells_partial) and the whole file (C248_input_partial). Violated: with a tab behind the name a material is listed but read without nuclides, and a mode card is not found (C248_tab_violated). Continuation lines of cells are compared as they are.",
 "C249": "Every card made from an inventory is read back with one entry for each identifier, the number 1000 Z + A with `.0` behind it, and the printed fraction (C249_read_partial). Violated: the suffix that was asked for is on no entry (C249_suffix_violated), and nuclides with the same Z and A are merged into the last of them, so fractions are lost (C249_isomer_violated). The text of an identifier (a float because `apply` makes each row one type) is part of the model.",
 "C250": "Holds for points and rays (C250_points_partial), planes (C250_plane_partial, C250_planes_partial), spheres (C250_sphere_partial), circles (C250_circle_partial) and lines of two planes (C250_line_partial). Violated by the three rotations, whose result is relative to the centre and does not move with it (C250_rotate_violated, for every point and every move; C250_rotate_partial), and by the point where a segment meets a plane (C250_segment_violated).",
 "C251": "Holds for areas and volumes (C251_areas_partial, C251_volumes_partial), points (C251_points_partial), sides (C251_sides_partial), intersections (C251_meet_partial), coordinates (C251_coordinates_partial) and the slope of a line through points with different x (C251_slope_partial). Violated by the slope through two points above each other (C251_slope_violated) and by the point where a segment meets a plane (C251_segment_violated), for every other unit.",
 "C252": "Holds for points (C252_points_partial), sides (C252_sides_partial), angles and intersections (C252_meet_partial), the line of two planes under turns about z (C252_line_partial) and the distance of two planes whose normals have x not 0 (C252_planes_partial). Violated by the distance of two planes: every pair of parallel planes can be turned such that it is NaN (C252_planes_violated).",
 "C253": "Every tally read from the lines of the reduced file is the one of the whole file (C253_tallies_partial), and a reduced file that can be read as a whole has tallies of the whole file only (C253_file_partial). Violated: reading the reduced file as a whole raises ValueError when no \"1mcnp\" line follows the termination line, since the version is looked up in the part that was cut off (C253_file_violated); a file that ends with another \"run terminated\" line than \"run terminated when\" is read but cannot be reduced (C253_other_end_violated).",
 "C256": "Holds for comment lines that start with c or C and a space (C256_data_partial, C256_blocks, C256_input_partial); the lists of lines kept with the input and the line numbers of comments differ. Violated by a comment line that is the letter c alone, which MCNP allows: it ends the material before it and the nuclides that follow are lost without an error (C256_bare_violated).",
 "C259": "Holds for points, lines and slices of meshes whose mid points are given in the new unit (C259_point_partial, C259_line_partial, C259_slice_partial), for mid points up to the rounding (C259_mids_partial), for the peak, the spectrum at a time and bins (C259_peak, C259_spectrum, C259_bins). Violated by mid points, which are rounded to five decimals (C259_mids_violated), and by the absolute tolerance of the uniformity test (C259_uniform_violated) and of the choice of an energy (C259_energy_violated).",
 "C260": "Holds for titles that are not blank and do not start with a digit (C260_title_partial). Violated: a title like \"3 0 degrees\" is read as a cell that is not in the input (C260_digit_violated), no input with the title \"2 spheres\" can be read (C260_number_violated), and none with a blank title (C260_blank_violated).",
 "C261": "Holds for lines that are empty or do not start with a blank or with one of the letters m, f, e, t, s, v, k, p (C261_partial). Violated: the data block goes on to the end of the file, so a material behind the end is reported as part of the input (C261_violated).",
 "C262": "Never read as something else: with a message block whose lines do not start with a digit every input is refused with AttributeError or KeyError (C262_refused_partial). Violated: an input that can be read cannot be read with a message block (C262_violated).",
 "C264": "Holds for mphys cards in small letters that start in column 1 and are not continued: for the lines (C264_lines_partial) and for the file before and after vised_compatible (C264_file_partial). Violated: when the mphys card is continued, its continuation line becomes part of the card in front of it, for example of a material (C264_continued_violated).",
 "C265": "Every mphys in small letters stands behind the letter c and a blank (C265_partial). Violated: MPHYS in capital letters is left as it is (C265_violated).",
 "C266": "Holds when a tab becomes five blanks or more: for each line (C266_line) and for the whole input (C266_input_partial); tabs in continuation lines of cells are left out. Violated: with four blanks the continuation lines of a material are not read (C266_few_violated).",
 "C271": "Holds for comments with a blank before the dollar sign behind data cards (C271_data_partial). Violated without this blank: an input with the card m1$... cannot be read (C271_tight_violated). Comments behind surfaces (C89) and behind cells (C207) are read as part of the card.",
 "C272": "Holds for points, lines, counts of zeros and upper and lower values, which come in the order of the table (C272_point_partial, C272_line_partial, C272_counts_partial), and for arrays of tables that list every voxel once (C272_array_partial). Violated: the values of a slice stand in the order of the table (C272_slice_violated), and of a voxel listed for two energies an array has the value listed last (C272_array_violated).",
 "C273": "Holds for all files without energy meshes behind another mesh (C273_order_partial, C273_files_partial), and for a requested mesh that is not an energy mesh and not the last one (C273_select_partial). Violated: a file with an energy mesh can be read only if it stands first (C273_energy_violated), and a requested mesh that stands last is given together with all the others (C273_last_violated).",
 "C274": "Holds for the readers of mesh tallies, directories of cross sections, histories for plots and FISPACT inputs, and for shortened outputs and lost points (C274_mesh, C274_xsdir, C274_plot, C274_fispact_input, C274_reduce, C274_lost). The other readers have a complete list of exceptions to the rule: MCNP inputs without cells (C274_input_partial), FISPACT outputs without the line of the mass or of version 2007 (C274_fispact_partial), emission lines without the line of the run time (C274_printlib_partial), PTRAC files with the second line of an event out of place (C274_ptrac_partial), MCNP outputs with the end of an iterator or a missing attribute (C274_output_partial; for which of them is not stated). Each exception has a witness (the _violated theorems).",
 "C275": "Holds for normals to the same side (C275_point_partial, C275_circle_partial, C275_planes_partial); with the normal to the other side distances and sides change their sign and lines their direction (C275_point_partial, C275_line_partial), and circles are the same if plane and sphere meet (C275_circle_partial). Violated: parallel planes are recognised only by normals to the same side (C275_angle_violated, C275_distance_violated), a plane beside the sphere is rejected only on one side (C275_circle_violated), and the point of a line segment depends on the factor (C275_segment_violated).",
 "C276": "Holds for points, lengths, radii and angles (C276_pairs_partial) and for lines of two planes (C276_line_partial). Violated: the distance of two planes changes its sign (C276_planes_violated), and the point of a line segment is another one from the other end (C276_segment_violated).",
 "C277": "Holds for emission line lists cut at any character (C277_printlib_partial), for FISPACT outputs without the run time line (C277_fispact_partial) and for reduced outputs (C277_reduce_partial). Violated: track files, xsdir files, mesh tally files and MCNP outputs that were cut off are read without an error, with histories, nuclides, voxels or tallies missing (C277_ptrac_violated, C277_xsdir_violated, C277_mesh_violated, C277_output_violated).",
 "C278": "Holds for track files (C278_ptrac_partial), xsdir files (C278_xsdir_partial) and the lines of mesh tally files other than those with the number of a mesh (C278_mesh_partial). Violated: a blank behind the number of a mesh is a ValueError (C278_mesh_violated), a print table whose line ends with another blank is not found (C278_tables_violated), and a cell tally whose volume heading lost its blank is a ValueError (C278_output_violated).",
 "C279": "Holds for xsdir files in which each name is defined once (C279_directory_partial, C279_thermal_partial, C279_weights_partial) and for the nuclides of emission line lists (C279_lines_partial). Violated: of a table named twice the last entry counts (C279_twice_violated).",
 "C280": "Holds for xsdir files, track files, emission line lists, run logs and MCNP inputs (C280_xsdir, C280_ptrac, C280_printlib, C280_log, C280_input), and for MCNP and FISPACT outputs of the form given in C296 (C280_output, C280_fispact). Violated: an empty line at the end of a mesh tally file is one more row of the table of its last mesh (C280_mesh_violated).",
 "C281": "Holds for inventories in which no two rows stand at the same place of the chart (C281_partial); the colour scale is the same in every order (C281_scale). Violated: all isomeric states of an element are drawn at A = 0, and the last of them is the one that is seen, so that the order decides (C281_violated).",
 "C282": "Holds but for planes with opposite normals, whose distance is given as 0 whatever the distances of their points (C282_planes_violated), and for normals without first component (C114); C282_planes_partial is the part that holds for distances between planes. The right triangle of C282_circle is stated for legs that are not 0, see C123.",
 "C283": "Holds for selections, presence, scope, materials and inventory lines (C283_filters, C283_present, C283_scope, C283_above, C283_material, C283_lines), for curves of nuclides that are in one of the parts only (C283_curve_partial) and for charts in which no two nuclides stand at the same place (C283_chart_partial). Violated: the curve of a nuclide in both parts is that of the first part (C283_both_violated).",
 "C285": "Proved: no division has fewer lines (C285_fewest_partial), unless it fills the first line to the last column with a single word. Violated: such a word is put on a second line (C285_exact_violated), because the blank behind the prefix is counted twice.",
 "C286": "Holds for all programs but one (C286_readers_partial, C286_writers_partial, C286_same). Violated: the program for track files parses its arguments and reads nothing, so it ends well for every name (C286_ptrac_violated, C286_refused_violated). argparse itself is not modelled.",
 "C287": "Proved for names that are not empty (C287_lost_partial, C287_lost_same), for shortened outputs and for the programs that only read. Violated: an empty output name is taken as none, so lost.3d is written over (C287_empty_violated). The activation script is C109, the program for fluxes C242; writing of images and log files is not modelled.",
 "C288": "Violated for every input: of cells and surfaces with the same number the last is kept (C288_cells_violated, C288_surfaces_violated), of materials and tallies the first (C288_materials_violated, C288_tallies_violated), without an exception. Proved: the lists of numbers have the number as often as there are cards, so a caller could notice (C288_listed_partial, C288_tallies_listed_partial).",
 "C289": "Proved for meshes with the same voxels in the same rows. Violated: rows are added by their number and not by their place, so for rows in another order the sum depends on which mesh comes first (C289_rows_violated). The error is a relative one and its combination is wrong (C60); meshes with five columns cannot be added (C59).",
 "C290": "Proved for distances between points, the point half way, distances from planes, senses of planes (with the sharp limit) and spheres, and hypotenuses of legs that are not 0. Violated by the hypotenuse at a leg of length 0: the result jumps to 0, by at least the other leg (C290_hypotenuse_violated).",
 "C291": "The two runs of the loop are compared step by step: the one with wider lines has fewer finished lines, or equally many and a current line that is no longer.",
 "C292": "The order needs no assumption on the list of mid points; the neighbours need an increasing list. The distance is half the width of the voxel that contains the place, and 0.000005 for the rounding.",
 "C293": "Proved where the files of the tallies can be written: the same result or the same exception (C293_same_partial), a file with its lines for every tally (C293_files), no other file changed (C293_others_kept). Violated: where they cannot be written a good output file cannot be read (C293_unwritable_violated); an output file called as the file of one of its tallies is replaced by the lines of that tally (C293_own_violated).",
 "C294": "Proved for the readers, the fluxes, the reduced output files (also onto the file itself) and the lost points, for every state of the files. The programs are those of Model/Programs and FluxesWriter.main; that the preparation of FISPACT runs can be repeated is C239_again.",
 "C295": "Proved for files whose summary stands behind the steps that are replaced and whose first fifty lines, which hold the version, stay; the lines of the two steps contain none of the labels looked for in the whole file (StepText). The lines between the first two start lines belong to no step (C75) and may be replaced as well (C295_first). Lines behind the tables of a step, such as the summary behind the last one, do not change its record either (C295_behind, for steps whose tables end within their lines).",
 "C296": "For MCNP outputs with their head in the first hundred lines and no tally that begins directly behind the heading of another (McnpFile); for FISPACT outputs whose last step has its tables complete (FispactFile). The lines added contain nothing that is looked for (NoMcnp, NoFispact). An output of 101 lines with its head in the last of them can no longer be read when a line is added, an example shows this.",
 "C297": "Partial. The version of MCNP is read from the first line of the file only, so that any line in front of it, even an empty one, hides it (C297_version_violated), and the date is looked for in the first hundred lines; everything else of an MCNP output stays as it was, errors included (C297_mcnp_partial). FISPACT outputs stay as they were (C297_fispact_partial) unless the line that names FISPACT 07 leaves the first fifty lines, in which case the file is taken for one of FISPACT-II (C297_fispact_violated). Mesh tally files stay as they were (C297_mesh).",
 "C298": "Partial. The tallies of an output are listed in the order of a set, so that the first tally may be another one in the next run (C298_order_violated), and the surfaces of a tally of type 1 are, too (C138). Everything else is the same for every order: the tallies themselves (C298_tally_partial), the rest of the output (C298_output_partial), the tallied cells and the tallies for the activation up to their order (C298_cells, C298_tallied) and, if the FILES file lies outside the folders of the cells and both runs return, all files after the activation (C298_setup, C298_activation).",
 "C299": "Partial. Columns of slices are lines (C299_column), lines consist of points if every row of the table belongs to a mid point (C299_points), and the array agrees with the points for meshes with six columns (C299_array_partial). A mesh with five columns has points but no array (C299_array_violated).",
 "C300": "Partial. For cells with a material the check tells exactly whether there is a card of the material (C300_material_partial, for material cards with a decimal number followed by white space). Void cells, which need no material, fail the check (C300_void_violated).",
 "C301": "Holds for the whole run (C301_run), because the values read are the same (C301_order). The entries have different keys, as those of a parsed JSON object have.",
 "C302": "Partial. Holds for meshes alone, replaced and taken out (C302_alone_partial, C302_replaced_partial, C302_removed_partial) as long as no energy mesh stands behind another mesh. An energy mesh that is read from a file of its own stops the reader with a ValueError behind any other mesh (C302_energy_violated).",
 "C303": "Partial. Numbers and materials hold for all cards (C303_numbers, C303_material), surfaces for cards whose geometry is written in the way of C206 (C303_surface_partial). A cell with the geometry 1:-2 is not found at surface 2, because the sign is kept (C303_union_violated).",
 "C304": "Partial. Points are read back (C304_points) and so are tables of values without commas (C304_csv_partial). A tally with energy bins has a list as the result of a cell; its text has commas and is written without quotes, so that the row has more than four fields (C304_comma_violated).",
 "C305": "Partial. Holds if at least one particle was lost (C305_lost_partial). If none was lost nothing is written, and the file of an earlier run stays under the same name with the points of another output (C305_old_file_violated).",
 "C306": "Partial. A caller could notice: the group found contains the energy exactly if check_upper_bound accepts it and it is above the lowest boundary (C306_check_partial). The program does not ask: for every energy above the structure it does the same as for the highest energy (C306_above_violated), and for every energy at or below the lowest boundary the same as for the lowest group, which check_upper_bound accepts as well (C306_below_violated).",
 "C307": "Partial. Energies and times other than 0 that the mesh does not have give no value (C307_energy_partial, C307_time_partial). Places behind the last mid point or in front of the first one are moved to it, however far away they are (C307_point_violated, C307_slice_violated, C307_line_violated).",
 "C308": "Partial. What stands in front of a section is not in it, and a section that the file does not have is empty (C308_front_partial). A section does not end where the next one begins: entries of the thermal scattering data are in the directory too (C308_thermal_violated), and entries of a directory behind them are in the thermal scattering data (C308_directory_violated).",
 "C309": "Partial. The data path does not depend on the case of its line (C309_datapath_partial). A directory or atomic weight ratios with a heading that begins with a capital letter are not found (C309_directory_violated, C309_weights_violated).",
 "C310": "Partial. For an energy or time of a bin the values of that bin are taken (C310_bin_partial, C310_slice_partial). An energy or time above all bins or below them gives the result of the outermost bin, however far away it is (C310_time_violated, C310_energy_violated, C310_peak_violated).",
 "C311": "Partial. Numbers that float reads are the density and the fractions (C311_density_partial, C311_fraction_partial). Cell blocks and material cards with a number in the short form raise an exception (C311_density_violated, C311_fraction_violated), for every parser that rejects these numbers, as float does.",
 "C312": "Partial. Results that float reads are read bin by bin (C312_energy_partial; for mesh tallies C64_all_partial). One number in the short form makes the energy bins or the whole mesh tally file unreadable (C312_energy_violated, C312_mesh_violated), for every parser that rejects these numbers, as float and pandas.to_numeric do.",
 "C313": "Partial. If no nuclide is listed twice, each has its fraction (C313_once_partial). Of a nuclide that is listed again only the last fraction is kept (C313_twice_violated).",
 "C314": "Partial. The surfaces of an input that was read are exactly those with a card, so they can be looked up (C314_lookup_partial). The reader itself does not notice: all surface cards can be taken away from an input and it is read with the same cells (C314_surfaces_violated).",
 "C315": "Partial. Each tally that is listed keeps the words of its card, so its cells can be looked up (C315_words_partial). The reader itself does not notice: the cells can be replaced by those of any other input and the tallies are read as before (C315_cells_violated).",
 "C320": "Partial. All characters besides digits, signs, white space and underscores are refused with ValueError (C320_cell_partial, C320_surface_partial). An underscore between two digits is left out, as in Python programs: cell 1_0 becomes cell 10 (C320_cell_violated, C320_surface_violated)."
}