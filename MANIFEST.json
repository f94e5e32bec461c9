{
 "claims": [
  {
   "property": "C01",
   "status": "proved",
   "theorems": [
    "Verif.Props.C01_records_roundtrip"
   ],
   "note": ""
  },
  {
   "property": "C02",
   "status": "proved",
   "theorems": [
    "Verif.Props.C02_navigation",
    "Verif.Props.C02_opened",
    "Verif.Props.C02_rewind_too_far"
   ],
   "note": ""
  },
  {
   "property": "C03",
   "status": "proved",
   "theorems": [
    "Verif.Props.C03_truncation"
   ],
   "note": ""
  },
  {
   "property": "C04",
   "status": "proved",
   "theorems": [
    "Verif.Props.C04_ints",
    "Verif.Props.C04_bools",
    "Verif.Props.C04_floats",
    "Verif.Props.C04_complex",
    "Verif.Props.C04_text",
    "Verif.Props.C04_scalar"
   ],
   "note": ""
  },
  {
   "property": "C05",
   "status": "partial",
   "theorems": [
    "Verif.Props.C05_bad_length",
    "Verif.Props.C05_scalar_count",
    "Verif.Props.C05_text_and_type",
    "Verif.Props.C05_complex_not_rejected",
    "Verif.Props.C05_complex_partial"
   ],
   "note": "complex payloads of a wrong length are not rejected: negation proved with a witness, the remaining part is the _partial theorem"
  },
  {
   "property": "C06",
   "status": "proved",
   "theorems": [
    "Verif.Props.C06_dict_exact",
    "Verif.Props.C06_dict_short"
   ],
   "note": ""
  },
  {
   "property": "C07",
   "status": "partial",
   "theorems": [
    "Verif.Props.C07_grid_partial",
    "Verif.Props.C07_single_plane_merged"
   ],
   "note": "grids with at least two planes read back exactly; a single-plane file is merged differently (negation proved)"
  },
  {
   "property": "C08",
   "status": "partial",
   "theorems": [
    "Verif.Props.C08_expected",
    "Verif.Props.C08_unexpected_partial",
    "Verif.Props.C08_first_record",
    "Verif.Props.C08_wrong_position"
   ],
   "note": "on an unexpected header the reader is rewound by two records instead of one: proved, with the position it does leave"
  },
  {
   "property": "C09",
   "status": "proved",
   "theorems": [
    "Verif.Props.C09_linesOf_spec",
    "Verif.Props.C09_iteration",
    "Verif.Props.C09_lineno"
   ],
   "note": ""
  },
  {
   "property": "C10",
   "status": "partial",
   "theorems": [
    "Verif.Props.C10_history",
    "Verif.Props.C10_rewind_undoes",
    "Verif.Props.C10_lineno_drift",
    "Verif.Props.C10_lineno_partial"
   ],
   "note": "line contents fully proved; lineno drifts when reading at the end of the file (negation proved)"
  },
  {
   "property": "C11",
   "status": "proved",
   "theorems": [
    "Verif.Props.C11_no_start",
    "Verif.Props.C11_block",
    "Verif.Props.C11_eof",
    "Verif.Props.C11_cases"
   ],
   "note": ""
  },
  {
   "property": "C12",
   "status": "partial",
   "theorems": [
    "Verif.Props.C12_lines_partial",
    "Verif.Props.C12_eof",
    "Verif.Props.C12_exact_count_refused",
    "Verif.Props.C12_extra_line_lost"
   ],
   "note": "the code violates the property (one line too many consumed); exact behaviour proved"
  },
  {
   "property": "C13",
   "status": "partial",
   "theorems": [
    "Verif.Props.C13_iteration",
    "Verif.Props.C13_history",
    "Verif.Props.C13_overrun"
   ],
   "note": "proved for histories staying inside the block; an overrun witness shows why the restriction is needed"
  },
  {
   "property": "C14",
   "status": "proved",
   "theorems": [
    "Verif.Props.C14_fresh",
    "Verif.Props.C14_next",
    "Verif.Props.C14_from_re",
    "Verif.Props.C14_remove_bounds",
    "Verif.Props.C14_remove_bounds_content",
    "Verif.Props.C14_get_lines_off_by_one"
   ],
   "note": "proved for from_re, remove_bounds and nested blocks as stated; the analogous claim for get_lines, not part of the statement, is refuted by C14_get_lines_off_by_one"
  },
  {
   "property": "C15",
   "status": "proved",
   "theorems": [
    "Verif.Props.C15_history",
    "Verif.Props.C15_get_frame"
   ],
   "note": ""
  },
  {
   "property": "C16",
   "status": "proved",
   "theorems": [
    "Verif.Props.C16_len",
    "Verif.Props.C16_iter",
    "Verif.Props.C16_index",
    "Verif.Props.C16_slice"
   ],
   "note": ""
  },
  {
   "property": "C17",
   "status": "partial",
   "theorems": [
    "Verif.Props.C17_agree_partial",
    "Verif.Props.C17_list_partial",
    "Verif.Props.C17_violated"
   ],
   "note": "the readers agree on files whose separators are empty lines; files as CASTEP writes them (separators with blanks) are read differently (negation proved)"
  },
  {
   "property": "C18",
   "status": "partial",
   "theorems": [
    "Verif.Props.C18_one_entry_per_frame_partial",
    "Verif.Props.C18_dropped",
    "Verif.Props.C18_merged",
    "Verif.Props.C18_violated"
   ],
   "note": "violated by the code: separators with blanks merge the frames, a doubled empty line drops the rest (proved); holds for single empty separators"
  },
  {
   "property": "C19",
   "status": "proved",
   "theorems": [
    "Verif.Props.C19_frame"
   ],
   "note": "for lines of the printed form; gaps are any whitespace, tags any word other than the long names, time and ions"
  },
  {
   "property": "C20",
   "status": "proved",
   "theorems": [
    "Verif.Props.C20_initial",
    "Verif.Props.C20_inline",
    "Verif.Props.C20_idempotent"
   ],
   "note": "for every nonempty list of comment strings; the patterns are built as trees, which is what compilation gives for strings without regex metacharacters"
  },
  {
   "property": "C21",
   "status": "proved",
   "theorems": [
    "Verif.Props.C21_words",
    "Verif.Props.C21_words_exist",
    "Verif.Props.C21_idempotent",
    "Verif.Props.C21_case",
    "Verif.Props.C21_same",
    "Verif.Props.C21_alphabet"
   ],
   "note": "ASCII letters and digits"
  },
  {
   "property": "C22",
   "status": "proved",
   "theorems": [
    "Verif.Props.C22_words",
    "Verif.Props.C22_words_exist",
    "Verif.Props.C22_clean",
    "Verif.Props.C22_idempotent"
   ],
   "note": ""
  },
  {
   "property": "C23",
   "status": "proved",
   "theorems": [
    "Verif.Props.C23_json_ready",
    "Verif.Props.C23_scalars",
    "Verif.Props.C23_scalars_eq",
    "Verif.Props.C23_total"
   ],
   "note": ""
  },
  {
   "property": "C24",
   "status": "partial",
   "theorems": [
    "Verif.Props.C24_violated",
    "Verif.Props.C24_partial",
    "Verif.Props.C24_atoms",
    "Verif.Props.C24_bonds",
    "Verif.Props.C24_no_loss"
   ],
   "note": "violated by the code: keys differing only in where an underscore comes from collide (witness); injectivity proved for underscore-free component texts"
  },
  {
   "property": "C25",
   "status": "partial",
   "theorems": [
    "Verif.Props.C25_violated",
    "Verif.Props.C25_partial",
    "Verif.Props.C25_no_sequences"
   ],
   "note": "violated by the code for separators other than the default below sequences (witness); proved for the default separator, and for every separator without sequences"
  },
  {
   "property": "C26",
   "status": "proved",
   "theorems": [
    "Verif.Props.C26_columns",
    "Verif.Props.C26_rectangular"
   ],
   "note": ""
  },
  {
   "property": "C27",
   "status": "proved",
   "theorems": [
    "Verif.Props.C27_aliases",
    "Verif.Props.C27_inplace"
   ],
   "note": ""
  },
  {
   "property": "C28",
   "status": "proved",
   "theorems": [
    "Verif.Props.C28_structure",
    "Verif.Props.C28_idempotent",
    "Verif.Props.C28_raises",
    "Verif.Props.C28_fix_data_types"
   ],
   "note": "complex(str) is not modelled; no code path converts text to complex"
  },
  {
   "property": "C29",
   "status": "proved",
   "theorems": [
    "Verif.Props.C29_convertible"
   ],
   "note": ""
  },
  {
   "property": "C30",
   "status": "proved",
   "theorems": [
    "Verif.Props.C30_complete",
    "Verif.Props.C30_tokens",
    "Verif.Props.C30_long_exponent"
   ],
   "note": ""
  },
  {
   "property": "C31",
   "status": "partial",
   "theorems": [
    "Verif.Props.C31_mixed_raises",
    "Verif.Props.C31_numbers_partial",
    "Verif.Props.C31_text_partial"
   ],
   "note": "violated by the code: values whose first number is an integer but a later one is not raise ValueError (witness); exact behaviour proved for number lists and for words"
  },
  {
   "property": "C32",
   "status": "partial",
   "theorems": [
    "Verif.Props.C32_negative_is_float",
    "Verif.Props.C32_single_partial",
    "Verif.Props.C32_sequence_partial"
   ],
   "note": "violated for signed integers, which become floats (witness); exact behaviour proved"
  },
  {
   "property": "C33",
   "status": "partial",
   "theorems": [
    "Verif.Props.C33_fractional_partial",
    "Verif.Props.C33_absolute_partial",
    "Verif.Props.C33_absolute_default_partial",
    "Verif.Props.C33_negative_ratio",
    "Verif.Props.C33_tagged_dropped",
    "Verif.Props.C33_units_dropped"
   ],
   "note": "proved for untagged capitalised symbols, numbers or unsigned ratios, optional spin, with distinct keys; violated for negative ratios, tagged or lower-case symbols, and units of the *_abs_intermediate/product blocks (witnesses); mixtures not covered"
  },
  {
   "property": "C34",
   "status": "partial",
   "theorems": [
    "Verif.Props.C34_operations_partial",
    "Verif.Props.C34_incomplete",
    "Verif.Props.C34_negative_ratio"
   ],
   "note": "proved for rows of numbers and unsigned ratios, any number of operations; violated for negative ratios (witness); incomplete operations are an IndexError"
  },
  {
   "property": "C35",
   "status": "proved",
   "theorems": [
    "Verif.Props.C35_pieces",
    "Verif.Props.C35_last",
    "Verif.Props.C35_one_key",
    "Verif.Props.C35_comments",
    "Verif.Props.C35_case",
    "Verif.Props.C35_case_block",
    "Verif.Props.C35_bare_block"
   ],
   "note": "bare %block lines excluded; their behaviour depends on a trailing comment (witness C35_bare_block); ASCII case mapping"
  },
  {
   "property": "C36",
   "status": "partial",
   "theorems": [
    "Verif.Props.C36_unterminated_partial",
    "Verif.Props.C36_name_ignored"
   ],
   "note": "violated by the code for blocks without an %endblock of their own name followed by another block: any %endblock closes any block (witness); proved for blocks after which no %endblock at all comes"
  },
  {
   "property": "C37",
   "status": "proved",
   "theorems": [
    "Verif.Props.C37_bands",
    "Verif.Props.C37_dropped"
   ],
   "note": "for files as CASTEP writes them: eigenvalues with a decimal point and no exponent; any other eigenvalue line is silently dropped (witness); a header counting something called exactly 'bands' is excluded"
  },
  {
   "property": "C38",
   "status": "partial",
   "theorems": [
    "Verif.Props.C38_columns",
    "Verif.Props.C38_width_error",
    "Verif.Props.C38_width_partial",
    "Verif.Props.C38_no_columns"
   ],
   "note": "alignment of columns and rejection of rows of the wrong number of values proved for all tables of printed numbers; rejection of short rows proved for any text when there is a value column, and refuted (witness) for a title naming no value column"
  },
  {
   "property": "C39",
   "status": "partial",
   "theorems": [
    "Verif.Props.C39_levels",
    "Verif.Props.C39_full",
    "Verif.Props.C39_grows_partial",
    "Verif.Props.C39_full_false",
    "Verif.Props.C39_warning_false",
    "Verif.Props.C39_geometry_false",
    "Verif.Props.C39_raises_false"
   ],
   "note": "violated: TEST_EXTRA_DATA is not part of FULL; raising MEDIUM to HIGH loses the line after an inline warning; raising LOW to MEDIUM moves the forces of the run into the first geometry iteration; LOW raises TypeError on a final configuration (witnesses); proved that the levels are strictly nested, that FULL has every other filter, and that for every file without geometry iterations and without a line that opens a section which reads on only when wanted, a larger set of filters returns every run and every entry of the smaller one"
  },
  {
   "property": "C40",
   "status": "partial",
   "theorems": [
    "Verif.Props.C40_only",
    "Verif.Props.C40_none_partial",
    "Verif.Props.C40_select_partial",
    "Verif.Props.C40_entry_partial",
    "Verif.Props.C40_none_false",
    "Verif.Props.C40_false"
   ],
   "note": "violated: with no filters energies and three other entries are returned, and a warning swallows a line only when warnings are wanted (witnesses); proved, for every file and set of filters, that every entry comes from a section that is asked for, and that any two sets of filters give the same entries under any set of keys when the sections about which they do not agree write other keys and read no more lines than they skip"
  },
  {
   "property": "C41",
   "status": "partial",
   "theorems": [
    "Verif.Props.C41_append_partial",
    "Verif.Props.C41_runs_partial",
    "Verif.Props.C41_false",
    "Verif.Props.C41_dropped_false",
    "Verif.Props.C41_warning_false"
   ],
   "note": "violated: energies of earlier runs are lists and of the last run tuples, a run of which only the banner is read is dropped at low filter levels, and an inline warning swallows the banner after it (witnesses); proved, for all filters and texts, that the runs of a concatenation are those of the parts up to that representation when the parts start with the banner and an empty line precedes each banner"
  },
  {
   "property": "C42",
   "status": "partial",
   "theorems": [
    "Verif.Props.C42_exact",
    "Verif.Props.C42_partial",
    "Verif.Props.C42_dropped_false",
    "Verif.Props.C42_false"
   ],
   "note": "violated: every k-point numbered 10 or more is dropped and the third coordinate is the first one once more (proved for all tables, plus a witness); exact result proved for every table, and the claim for tables of at most nine points with equal first and third coordinates"
  },
  {
   "property": "C43",
   "status": "partial",
   "theorems": [
    "Verif.Props.C43_exact",
    "Verif.Props.C43_partial",
    "Verif.Props.C43_zero_false"
   ],
   "note": "violated: a spin printed as zero is not returned (proved for every table with one); the exact result is proved for every table with different bonds, and the claim when no spin is read as zero; atom labels in brackets are not covered"
  },
  {
   "property": "C44",
   "status": "partial",
   "theorems": [
    "Verif.Props.C44_entries",
    "Verif.Props.C44_partial",
    "Verif.Props.C44_twice_false"
   ],
   "note": "violated: a list of texts is compared with tuples of floats, so a q-point printed twice is always reported twice (proved for every section without tables of characters); q-points printed with different numbers are reported once each"
  },
  {
   "property": "C45",
   "status": "proved",
   "theorems": [
    "Verif.Props.C45_stresses",
    "Verif.Props.C45_three",
    "Verif.Props.C45_six",
    "Verif.Props.C45_dynamical"
   ],
   "note": "for all tables of printed numbers among lines without digits; a dynamical matrix whose real and imaginary parts differ in shape is a ValueError"
  },
  {
   "property": "C46",
   "status": "proved",
   "theorems": [
    "Verif.Props.C46_invariants",
    "Verif.Props.C46_rounding",
    "Verif.Props.C46_raman"
   ],
   "note": "the identity over every commutative ring, correct rounding of every addition, subtraction and product of finite doubles, and the entries of every Raman section; sum() is left as an arbitrary function of the list (its algorithm depends on the Python version)"
  },
  {
   "property": "C47",
   "status": "partial",
   "theorems": [
    "Verif.Props.C47_sorted",
    "Verif.Props.C47_predicted",
    "Verif.Props.C47_castep_partial",
    "Verif.Props.C47_dotted"
   ],
   "note": "violated for seednames with dots, whose suffix is stripped twice (witness); the sorting and the shape of the names are proved for all inputs; ASCII upper and lower case"
  },
  {
   "property": "C48",
   "status": "proved",
   "theorems": [
    "Verif.Props.C48_flags_ignored",
    "Verif.Props.C48_none"
   ],
   "note": "for all parameters, cells and iteration orders; the file for Born charges, whose name is free, excepted"
  },
  {
   "property": "C49",
   "status": "partial",
   "theorems": [
    "Verif.Props.C49_reachable_partial",
    "Verif.Props.C49_unreachable"
   ],
   "note": "violated: .recpot and .dbands_dstrain are unreachable for all inputs; every other kind is reached"
  },
  {
   "property": "C50",
   "status": "partial",
   "theorems": [
    "Verif.Props.C50_function",
    "Verif.Props.C50_name_partial",
    "Verif.Props.C50_name_ignored",
    "Verif.Props.C50_extension",
    "Verif.Props.C50_unknown",
    "Verif.Props.C50_no_extension",
    "Verif.Props.C50_handle"
   ],
   "note": "violated for binary formats and unknown names given as text: the name is silently ignored (witness); proved for all paths otherwise"
  },
  {
   "property": "C51",
   "status": "partial",
   "theorems": [
    "Verif.Props.C51_all_partial",
    "Verif.Props.C51_twice"
   ],
   "note": "violated for a path requested under two types (witness); proved for distinct paths given as text; several Path objects with json output (TypeError in json.dump) are outside the model"
  },
  {
   "property": "C52",
   "status": "partial",
   "theorems": [
    "Verif.Props.C52_flags",
    "Verif.Props.C52_files_partial",
    "Verif.Props.C52_total",
    "Verif.Props.C52_dotted",
    "Verif.Props.C52_err_directory",
    "Verif.Props.C52_absolute"
   ],
   "note": "violated for seeds with dots, error files of seeds in directories and absolute seeds (witnesses, the last for all absolute seeds); proved otherwise from the argparse namespace on; seeds with wildcard characters outside the model"
  },
  {
   "property": "C53",
   "status": "proved",
   "theorems": [
    "Verif.Props.C53_named",
    "Verif.Props.C53_yaml",
    "Verif.Props.C53_unknown"
   ],
   "note": "for all names and sets of installed packages"
  },
  {
   "property": "C54",
   "status": "proved",
   "theorems": [
    "Verif.Props.C54_epme_roundtrip"
   ],
   "note": ""
  },
  {
   "property": "C55",
   "status": "proved",
   "theorems": [
    "Verif.Props.C55_logical",
    "Verif.Props.C55_guess"
   ],
   "note": "ASCII case mapping"
  },
  {
   "property": "C56",
   "status": "partial",
   "theorems": [
    "Verif.Props.C56_numbers_partial",
    "Verif.Props.C56_unit_partial",
    "Verif.Props.C56_text",
    "Verif.Props.C56_unit_false",
    "Verif.Props.C56_tab_false",
    "Verif.Props.C56_mixed_false"
   ],
   "note": "violated: two blanks before a unit lose the setting or put the separator into the value, numbers separated by tabs and rows starting with a whole number followed by another kind raise ValueError (witnesses); proved for every keyword, separator, comment, text, and row of numbers with or without unit otherwise"
  },
  {
   "property": "C57",
   "status": "partial",
   "theorems": [
    "Verif.Props.C57_order_partial",
    "Verif.Props.C57_order_matters"
   ],
   "note": "violated with several functionals and generated pseudopotentials (witness); proved otherwise"
  },
  {
   "property": "C58",
   "status": "partial",
   "theorems": [
    "Verif.Props.C58_yaml_partial",
    "Verif.Props.C58_pyyaml"
   ],
   "note": "violated for the format pyyaml (witness); proved for yaml and ruamel"
  },
  {
   "property": "C59",
   "status": "proved",
   "theorems": [
    "Verif.Props.C59_header",
    "Verif.Props.C59_header_no_option",
    "Verif.Props.C59_atoms"
   ],
   "note": "for the option of band structure files and for no option, where every other line lands under the empty name"
  },
  {
   "property": "C60",
   "status": "proved",
   "theorems": [
    "Verif.Props.C60_err",
    "Verif.Props.C60_err_total",
    "Verif.Props.C60_no_stack"
   ],
   "note": "for every file that names the trace stack; any other file raises StopIteration (proved)"
  },
  {
   "property": "C61",
   "status": "proved",
   "theorems": [
    "Verif.Props.C61_hug",
    "Verif.Props.C61_needs_blank"
   ],
   "note": "for rows that start with a blank, as CASTEP writes them; other rows are silently dropped (witness)"
  },
  {
   "property": "C62",
   "status": "partial",
   "theorems": [
    "Verif.Props.C62_exact",
    "Verif.Props.C62_partial",
    "Verif.Props.C62_permittivity_false",
    "Verif.Props.C62_oscillator_false"
   ],
   "note": "violated: the last row of every table is dropped (proved for every non-empty permittivity table), and the columns of the oscillator strengths are shifted by one (witness); the exact result is proved for every file of headers and tables"
  },
  {
   "property": "C63",
   "status": "partial",
   "theorems": [
    "Verif.Props.C63_exact",
    "Verif.Props.C63_partial",
    "Verif.Props.C63_last_false",
    "Verif.Props.C63_species_false"
   ],
   "note": "violated: the last row of every density of states is dropped (proved for every table), and a repeated or labelled species raises re.error (witness); the exact result is proved for every file of headers, gradients and tables"
  },
  {
   "property": "C64",
   "status": "proved",
   "theorems": [
    "Verif.Props.C64_forces",
    "Verif.Props.C64_vectors"
   ],
   "note": "for every title of letters and blanks and every table of distinct atoms among lines without digits; an atom listed twice keeps the later vector"
  },
  {
   "property": "C65",
   "status": "proved",
   "theorems": [
    "Verif.Props.C65_cell"
   ],
   "note": "for every block whose lines hold numbers separated by other text; the printed powers of units count as numbers (a volume line has two), so a density printed without one would be left out"
  },
  {
   "property": "C66",
   "status": "partial",
   "theorems": [
    "Verif.Props.C66_partial",
    "Verif.Props.C66_gain_as_fermi",
    "Verif.Props.C66_no_fermi_false",
    "Verif.Props.C66_initial_lost",
    "Verif.Props.C66_dotted_lost"
   ],
   "note": "violated: in a table without the column of the Fermi energy (fixed occupancies) the gain is reported as the Fermi energy and the first row is dropped (proved for every such row), and contributions with a full stop in their name are lost (witness); proved for every table with the column, with any items between the rows"
  },
  {
   "property": "C67",
   "status": "proved",
   "theorems": [
    "Verif.Props.C67",
    "Verif.Props.C67_branches",
    "Verif.Props.C67_vectors",
    "Verif.Props.C67_marks",
    "Verif.Props.C67_before",
    "Verif.Props.C67_large_false"
   ],
   "note": "for every file whose header comes first (a line before it raises UnboundLocalError, proved for every such file); the text that ends the eigenvectors is proved to be in the last line only for fewer than a thousand branches, and to be found among the decimals for a thousand ions (witness)"
  },
  {
   "property": "C68",
   "status": "proved",
   "theorems": [
    "Verif.Props.C68",
    "Verif.Props.C68_order",
    "Verif.Props.C68_calculation_blank",
    "Verif.Props.C68_atoms_glued",
    "Verif.Props.C68_magres_blank"
   ],
   "note": "for every file with the three sections in the order CASTEP writes them, with or without the old section; the rejections hold for every such file, whatever follows"
  },
  {
   "property": "C69",
   "status": "partial",
   "theorems": [
    "Verif.Props.C69_partial",
    "Verif.Props.C69_lost",
    "Verif.Props.C69_violated",
    "Verif.Props.C69_names"
   ],
   "note": "violated: only the last tensor is kept (files that differ in the others read the same, proved for every such pair, with a witness), and eigenvalues and eigenvectors are never under their documented names but under misspelt ones; the exact result is proved for every file"
  },
  {
   "property": "C70",
   "status": "partial",
   "theorems": [
    "Verif.Props.C70_partial",
    "Verif.Props.C70_rejected",
    "Verif.Props.C70_cut",
    "Verif.Props.C70_cut_false"
   ],
   "note": "violated: a row cut after five to twelve columns is accepted, with shortened velocities and zeros for the missing parts of the matrix element (exact result proved for every such file, with a witness); rows with fewer than five columns always raise ValueError, and files of complete rows are read exactly"
  },
  {
   "property": "C71",
   "status": "partial",
   "theorems": [
    "Verif.Props.C71_partial",
    "Verif.Props.C71_band",
    "Verif.Props.C71_violated"
   ],
   "note": "violated: the highest occupied band is looked for in a misspelt form and never reported, files that differ only in that line read the same (proved for every such pair); everything else is exact for every file made of headers, overlaps, spectra and other lines"
  },
  {
   "property": "C72",
   "status": "partial",
   "theorems": [
    "Verif.Props.C72_partial",
    "Verif.Props.C72_eof",
    "Verif.Props.C72_rejected",
    "Verif.Props.C72_violated"
   ],
   "note": "violated: a first line TSTYPE with another type of search has the mark TST, is taken for the title of a structure and raises TypeError (proved for every such type and every rest of the file); files in which only titles and confirmations have a mark are read exactly, also without the last blank line"
  },
  {
   "property": "C73",
   "status": "partial",
   "theorems": [
    "Verif.Props.C73_exact",
    "Verif.Props.C73_partial",
    "Verif.Props.C73_violated"
   ],
   "note": "violated: the rows of the internal strain have seven components, the first being the number of the atom (proved for every internal strain with rows); header and matrices are exact for every file made of headers, matrices, internal strains and other lines, and so is everything else about the internal strain"
  },
  {
   "property": "C74",
   "status": "proved",
   "theorems": [
    "Verif.Props.C74",
    "Verif.Props.C74_reject"
   ],
   "note": "for every file of a head line and rows; the file is a dictionary up to the order of its keys, which the theorem leaves open as the code does; a blank line (also at the end) raises AttributeError (C74_reject)"
  },
  {
   "property": "C75",
   "status": "proved",
   "theorems": [
    "Verif.Props.C75"
   ],
   "note": "lines without digits between the atoms are ignored; the atoms are distinct; the sum of the totals is the sum of the two doubles"
  },
  {
   "property": "C76",
   "status": "partial",
   "theorems": [
    "Verif.Props.C76_hirshfeld_partial",
    "Verif.Props.C76_hirshfeld_mantissa",
    "Verif.Props.C76_exponent_false",
    "Verif.Props.C76_spins",
    "Verif.Props.C76_born_partial"
   ],
   "note": "violated: of a Hirshfeld charge with an exponent only what precedes it is reported (exact result for every table, with a witness); the spins are exact, Born charges for first rows without exponents"
  },
  {
   "property": "C77",
   "status": "proved",
   "theorems": [
    "Verif.Props.C77_orbitals",
    "Verif.Props.C77_displacements",
    "Verif.Props.C77_nested"
   ],
   "note": "C77_nested says what the grouping is; orbitals S, P, D, F with an optional x, y or z, as the pattern accepts; the totals come after the rows, as CASTEP prints them"
  },
  {
   "property": "C78",
   "status": "proved",
   "theorems": [
    "Verif.Props.C78",
    "Verif.Props.C78_columns"
   ],
   "note": "the zero-point energy comes before the rows; without it the columns alone"
  },
  {
   "property": "C79",
   "status": "partial",
   "theorems": [
    "Verif.Props.C79_finalisation",
    "Verif.Props.C79_rejects",
    "Verif.Props.C79_solvation",
    "Verif.Props.C79_solvation_name_false"
   ],
   "note": "violated: a solvation energy whose name contains a number is reported as that number (C79_solvation_name_false); what is reported is the first number of the line (C79_solvation). LastWins determines the dictionary (Lemmas: LineTab.lastWins_unique)"
  },
  {
   "property": "C80",
   "status": "proved",
   "theorems": [
    "Verif.Props.C80_occupancies",
    "Verif.Props.C80_rejects",
    "Verif.Props.C80_line_min",
    "Verif.Props.C80_dipole"
   ],
   "note": "the numbers of a line are those of get_numbers (HasNumbers); total charges with no T before the word Total"
  },
  {
   "property": "C81",
   "status": "proved",
   "theorems": [
    "Verif.Props.C81",
    "Verif.Props.C81_orphan"
   ],
   "note": "the number of the k-point is matched but not part of what is reported, as in the code"
  },
  {
   "property": "C82",
   "status": "proved",
   "theorems": [
    "Verif.Props.C82",
    "Verif.Props.C82_quiet"
   ],
   "note": "the phrases are the table TRIGGERS in Spec/CastepDoc.lean (one entry for each of the 91 branches, proved to cover its pattern); a title must have none of the phrases of the branches before its own; or be no title between stars where these have to be; rows as in C43, C45, C64-C66, C75-C78 and C81; electronic minimisations with the Fermi energy, Hirshfeld and Born charges without exponents; the other sections are not part of Doc"
  },
  {
   "property": "C83",
   "status": "proved",
   "theorems": [
    "Verif.Props.C83"
   ],
   "note": "the same sections and text as C82; the banner starts with Compiled for, possibly indented; several banner lines may have the same name, the last value is kept"
  },
  {
   "property": "C84",
   "status": "proved",
   "theorems": [
    "Verif.Props.C84",
    "Verif.Props.C84_table",
    "Verif.Props.C84_unwanted",
    "Verif.Props.C84_empty"
   ],
   "note": "steps are made of the sections and text of C82 (no memory estimate); the entries a file adds to a run are Item.after in Spec/CastepDoc.lean; MD Data rows with a decimal point and no exponent; a row such as T/=0 Pressure, whose name has other characters, is not reported, as in the code and its test"
  },
  {
   "property": "C85",
   "status": "proved",
   "theorems": [
    "Verif.Props.C85"
   ],
   "note": "LastWins determines the dictionary; names of criteria without spaces, as printed"
  },
  {
   "property": "C86",
   "status": "partial",
   "theorems": [
    "Verif.Props.C86_partial",
    "Verif.Props.C86_lost",
    "Verif.Props.C86_violated"
   ],
   "note": "violated: rows whose text has a character other than letters and spaces before the numbers are lost, among them the total (Approx. total storage) and the first row CASTEP prints (Baseline code, static data): the estimate reads as if they were not there (proved for every such row and all other lines, with a witness); the other rows are exact"
  },
  {
   "property": "C87",
   "status": "proved",
   "theorems": [
    "Verif.Props.C87",
    "Verif.Props.C87_unwanted",
    "Verif.Props.C87_empty"
   ],
   "note": "for the sections of C82/C83; an enthalpy is not both in lines of its own and in tables of molecular dynamics of the same run or iteration (Sound); every iteration has a section that is wanted, C87_empty being the other case; a line with an enthalpy leaves a geom_opt, perhaps empty, in the iteration it is in"
  },
  {
   "property": "C88",
   "status": "partial",
   "theorems": [
    "Verif.Props.C88_partial",
    "Verif.Props.C88_violated_digits",
    "Verif.Props.C88_violated_colon"
   ],
   "note": "violated: an option whose text begins with digits, such as the name of a file 2H-MoS2.check, raises ValueError and loses the whole file (proved for every such text and all lines around it), and of a value with colons only what follows the last one is kept, the rest going into the name (witness); otherwise exact. Blocks of developer code within the list are not covered"
  },
  {
   "property": "C89",
   "status": "partial",
   "theorems": [
    "Verif.Props.C89_partial",
    "Verif.Props.C89_violated"
   ],
   "note": "violated: a line on a file whose name contains spin is taken for the line with the spin of the last state: that spin is replaced by the first number of the name and no file is reported (proved for every report and every such line); the same holds for names with nr. or MODOS state, which C89_partial excludes; otherwise exact"
  },
  {
   "property": "C90",
   "status": "partial",
   "theorems": [
    "Verif.Props.C90_exact",
    "Verif.Props.C90_partial",
    "Verif.Props.C90_violated"
   ],
   "note": "violated: the ends are a dictionary with the atoms as keys, so of a constraint between an atom and an image of it an end is lost (proved for every table with such a row); C90_exact gives the result for every table, C90_partial for constraints between different atoms"
  },
  {
   "property": "C91",
   "status": "proved",
   "theorems": [
    "Verif.Props.C91",
    "Verif.Props.C91_active"
   ],
   "note": "LastWins determines the dictionaries; a line of the active space with several of the texts gives its first number for each, as in the code"
  },
  {
   "property": "C92",
   "status": "partial",
   "theorems": [
    "Verif.Props.C92_partial",
    "Verif.Props.C92_violated"
   ],
   "note": "violated: a row of a species with a tag has one colon, is taken for a named line and lost for the species (proved for every report and every such row); otherwise exact. No line is named species"
  },
  {
   "property": "C93",
   "status": "proved",
   "theorems": [
    "Verif.Props.C93"
   ],
   "note": "names without digits (the numbers are those of the whole line, as in the code); LastWins determines the dictionary"
  },
  {
   "property": "C94",
   "status": "proved",
   "theorems": [
    "Verif.Props.C94_excitations",
    "Verif.Props.C94_samples",
    "Verif.Props.C94_symmetry"
   ],
   "note": "types of one word; samples in decimal notation without exponent, in indented lines"
  },
  {
   "property": "C95",
   "status": "partial",
   "theorems": [
    "Verif.Props.C95_partial",
    "Verif.Props.C95_violated"
   ],
   "note": "violated: the line of related atoms of a species with a tag has two colons, the unpacking raises ValueError and the file cannot be parsed (proved after any part of a report). C95_partial has no such species; reports with the table of ionic constraints (iprint > 1) are not covered; LastWins determines the dictionaries"
  },
  {
   "property": "C96",
   "status": "partial",
   "theorems": [
    "Verif.Props.C96_mass_partial",
    "Verif.Props.C96_quadrupole",
    "Verif.Props.C96_pseudopot_partial",
    "Verif.Props.C96_violated"
   ],
   "note": "violated: a species label or a file name with a blank in it gives a row of more than two words and the unpacking raises ValueError (proved for any table with such a row); the _partial theorems have rows of two words, and pseudopotentials that are not taken apart with PSPOT. Sets fixes every property of every species and every other key of the run"
  },
  {
   "property": "C97",
   "status": "partial",
   "theorems": [
    "Verif.Props.C97_partial",
    "Verif.Props.C97_violated"
   ],
   "note": "violated: the sign of the energy of a projector stands outside the group of the regular expression, so a negative energy is reported as positive: proved for all shells, the result is that for the absolute values of the energies; C97_partial has no negative energies. Numbers are written without exponent"
  },
  {
   "property": "C98",
   "status": "partial",
   "theorems": [
    "Verif.Props.C98_partial",
    "Verif.Props.C98_violated"
   ],
   "note": "violated: a definition with a local energy, such as 0.5=2|..., raises ValueError: the expression wants a blank before the local energy (proved for every unsigned energy and every definition without the mark of a fit); C98_partial has no local energy and no negative energies of projectors (see C97)"
  },
  {
   "property": "C99",
   "status": "partial",
   "theorems": [
    "Verif.Props.C99_single",
    "Verif.Props.C99_partial",
    "Verif.Props.C99_violated"
   ],
   "note": "violated: the expression for a line has a single digit for the number of the constraint, so from the tenth constraint on all lines are dropped without any message (C99_single says what is given for every block, C99_violated that a block with numbers of two digits gives nothing); C99_partial has single digits"
  },
  {
   "property": "C100",
   "status": "partial",
   "theorems": [
    "Verif.Props.C100_partial",
    "Verif.Props.C100_violated"
   ],
   "note": "violated: units with a digit, such as ev/ang**3 for pressures, give a row with the exponent instead of units; C100_partial has units without digits, and no negative ratios (see C34)"
  },
  {
   "property": "C101",
   "status": "partial",
   "theorems": [
    "Verif.Props.C101_partial",
    "Verif.Props.C101_small"
   ],
   "note": "for a species in small letters the name is lost and the value becomes a row of numbers (C101_small); C101_partial has species with a capital letter and without a label in brackets"
  },
  {
   "property": "C102",
   "status": "proved",
   "theorems": [
    "Verif.Props.C102"
   ],
   "note": "LastWins determines the dictionaries; every line has a value that does not begin with a blank"
  },
  {
   "property": "C103",
   "status": "partial",
   "theorems": [
    "Verif.Props.C103_partial"
   ],
   "note": "definitions are those of C98_partial: no local energy, no negative energies of projectors (C97_violated, C98_violated); names of files have no vertical line; LastWins determines the dictionary"
  },
  {
   "property": "C104",
   "status": "partial",
   "theorems": [
    "Verif.Props.C104_exact",
    "Verif.Props.C104_partial",
    "Verif.Props.C104_violated"
   ],
   "note": "violated: the atoms of a constraint are the keys of a dictionary, so of an atom and its own periodic image only one is reported (C104_exact says what is given for every block); C104_partial has constraints between different atoms"
  },
  {
   "property": "C105",
   "status": "partial",
   "theorems": [
    "Verif.Props.C105_partial",
    "Verif.Props.C105_violated"
   ],
   "note": "violated: without a line of units, a first line of two words such as `H C6:0.0` is taken for the units and the species is missing; C105_partial has first lines that are not of two words, and numbers ending with a digit (of `2.` only 2 is read, as an integer); LastWins determines the dictionaries"
  },
  {
   "property": "C106",
   "status": "partial",
   "theorems": [
    "Verif.Props.C106_partial"
   ],
   "note": "shells are named with small letters, species have no label in brackets, numbers end with a digit (of `2.` only 2 is read, as an integer); LastWins determines the dictionaries"
  },
  {
   "property": "C107",
   "status": "proved",
   "theorems": [
    "Verif.Props.C107"
   ],
   "note": "the function on the lines of the block; the product is the double nearest the product of the two doubles"
  },
  {
   "property": "C108",
   "status": "partial",
   "theorems": [
    "Verif.Props.C108_partial",
    "Verif.Props.C108_violated"
   ],
   "note": "violated: the row with the definition in quotes adds nothing, whatever the report (C108_violated); C108_partial has everything else; rows that are neither an orbital nor a projector begin with a character other than a digit or l, or have no digit; the ionic charge has a decimal point and no exponent; LastWins determines the other entries"
  },
  {
   "property": "C109",
   "status": "proved",
   "theorems": [
    "Verif.Props.C109"
   ],
   "note": "the function on the lines of the block; names of minimisers in capitals, quantities with a decimal point or an exponent (a whole number such as `= 5 GPa` is not matched by the pattern); atoms of a table have different names; LastWins determines the dictionary"
  },
  {
   "property": "C110",
   "status": "proved",
   "theorems": [
    "Verif.Props.C110"
   ],
   "note": "the function on the lines of the block; rows of tables have no equals sign, titles of tables other than that of the ions contain none of Ionic, Elec and Total, rows of a table per volume and ions have different names; a direction is a key of floats, represented by their bits (so 0.0 and -0.0 are different keys in the model, equal in Python); LastWins determines the dictionaries"
  },
  {
   "property": "C111",
   "status": "proved",
   "theorems": [
    "Verif.Props.C111"
   ],
   "note": "the function on the lines of the block; there is a blank after the first bar and before the last; the asymmetry has a decimal point and no exponent (the pattern takes nothing else, and CASTEP prints two decimals); the last of repeated atoms is reported; LastWins determines the dictionary"
  },
  {
   "property": "C112",
   "status": "partial",
   "theorems": [
    "Verif.Props.C112_partial",
    "Verif.Props.C112_false"
   ],
   "note": "violated: on a row without a unit the expression takes the last digit of the value for the unit, so 1.5 is reported as 1 (C112_false); C112_partial has rows with units. The blocks of two-body and three-body terms are modelled, not proved about"
  },
  {
   "property": "C113",
   "status": "partial",
   "theorems": [
    "Verif.Props.C113_partial",
    "Verif.Props.C113_violated",
    "Verif.Props.C113_block_violated"
   ],
   "note": "violated: parts of values are reported as flags (tol=1e-5 gives an entry with an empty name, file=start.cell an entry cell), and of a sub-block only the text up to the second colon is read, so settings written with colons in it are lost. C113_partial: every setting written with an equals sign is in the dictionary with its value, whatever other words there are, and every other word of letters and underscores is there with None unless a setting has its name; names are different after normalisation; no colons; the closing line names the block (any letter case, spacing and comment)"
  }
 ]
}