# Formal model of castep_outputs: design

## 1. What is here

* `properties.jsonl` — the properties, stated against the public API.
* `lean/Verif/Py/*` — the fragment of Python the code relies on: strings, `dict`, exceptions,
  `re`, `struct`, file objects, `pathlib` arithmetic.
* `lean/Verif/Model/*` — the model of the repository, function by function; every definition
  cites file and lines.
* `lean/Verif/Spec/*` — small independent specifications used in theorem statements.
* `lean/Verif/Lemmas/*` — helper lemmas.
* `lean/Verif/Props/*` — the property theorems, one file per area, each with `example`s showing
  that its hypotheses are met by a concrete non-trivial case.
* `MANIFEST.json` — property → theorem names; `seeded/LOG.jsonl` — mutation experiments.

Theorems are named `Cnn_...` after their property.  A suffix `_partial` marks a theorem that
proves the property under a restriction the property does not have; names without it either
prove (a part of) the property in full or are refutations with a witness (`_violated`,
`_ignored`, `_dropped`, ... — their comments begin with "Cnn fails").

## 2. Trusted base

* Lean 4.33.0's kernel.  Theorems depend at most on `propext`, `Classical.choice`, `Quot.sound`
  (checked with `#print axioms`).  No own axioms, `sorry`, `native_decide` or `bv_decide`.
  `decide +kernel` is used for closed facts only (finite tables, compiled patterns, witnesses):
  it is checked by the kernel and adds no axiom.
* The fidelity of the model to the code, which is by reading only: nothing in /repo is executed.
* The modelled Python semantics:
  * text = `List Nat` of code points.  `\s` and `str.isspace` use CPython's full whitespace set.
    `\d`, `\w`, `isdigit`, `lower`, `upper`, `title` are modelled on ASCII; theorems whose truth
    depends on those classes are claims about ASCII text (CASTEP output is ASCII).
  * bytes = `List (Fin 256)`.
  * exceptions are values of an enumeration `PyErr` in `Except`; messages are left out.
  * `dict` = association list in insertion order, update in place.  A `set` of text is a
    duplicate-free list, its iteration order an explicit parameter (C57).
  * `re` = ordered-choice backtracking semantics ("list of successes": all ways to match in the
    order the engine tries them; the engine's answer is the first).  Zero-width iterations of a
    repeated group are cut (no pattern of the repository needs them).  Patterns are compiled
    from their literal text by a small regex parser inside the model (`Py/Regex.lean`).
  * binary `float` = the correctly rounded binary64 of the exact rational value of the text
    (that is what `float(Fraction(s))` and `float(s)` compute), with the `OverflowError` branch.
  * files: text/bytes plus a cursor; text is ASCII so `tell` is the character offset.  The plain
    handle `file_or_path` passes to most parsers is the list of lines still to come.
  * Python integers are unbounded, `Int`.

### What is modelled and what is not

| code | model | remarks |
|------|-------|---------|
| `utilities/castep_res.py` (patterns, `get_numbers`, `get_atom_parts`) | `Model/Res.lean` | the patterns used by the modelled parsers, from their source text |
| `utilities/type_conv.py` | `Model/TypeConv.lean` | complete except `complex(str)`, which no path reaches |
| `utilities/utility.py` | `Model/Utility.lean` | `normalise*`, `strip_*`, `json_safe`, `flatten_dict`, `stack_dict`, `add_aliases`, `atreg_to_index`, `filter_underscore`; comment patterns built as trees (strings without metacharacters) |
| `utilities/filewrapper.py` | `Model/FileWrapper.lean` | complete: `FileWrapper`, `Block` |
| `bin_parsers/fortran_bin_parser.py`, `cst_esp_file_parser.py`, `epme_bin_parser.py` | `Model/FortranBin.lean`, `Model/BinFiles.lean` | complete |
| `tools/md_geom_parser.py`, `parsers/md_geom_file_parser.py` | `Model/MdGeom.lean` | complete |
| `parsers/cell_param_file_parser.py` | `Model/CellParam.lean` | complete |
| `tools/get_generated_files.py` | `Model/GenFiles.lean` | complete; iteration order of sets a parameter |
| `cli/castep_outputs_main.py`, `cli/args.py`, `utilities/dumpers.py` | `Model/Cli.lean` | the results of parsers, the namespace of argparse and the file system are parameters; paths given as text |
| `parsers/parse_utilities.py` (`parse_regular_header`) | `Model/Header.lean` | the part before a block; complete |
| `parsers/parse_fmt_files.py`, `err_file_parser.py`, `hug_file_parser.py`, `xrd_sf_file_parser.py`, `bands_file_parser.py`, `epme_file_parser.py` | `Model/Tables.lean` | complete |
| `parsers/elastic_file_parser.py`, `phonon_file_parser.py`, `phonon_dos_file_parser.py`, `efield_file_parser.py`, `tddft_file_parser.py`, `ts_file_parser.py` | `Model/Spectra.lean` | complete |
| `parsers/magres_file_parser.py` | `Model/Magres.lean` | complete |
| `parsers/castep_file_parser.py` | `Model/CastepBlocks.lean`, `Model/CastepTables.lean`, `Model/Castep.lean`, `Py/FloatOps.lean` | complete: `Filters`, all sections in order, the main loop, the recursive calls, every `_process_*` function. The built-in `sum` of floats is a parameter (its rounding changed in Python 3.12). A float inside a dictionary key is represented by its bit pattern. `curr_run` and its sub-dictionaries are `defaultdict`s only where a missing key is read; log messages left out |

Not modelled anywhere: the text YAML/JSON libraries write, log messages, `argparse` itself (the
command line enters as the namespace it returns), wildcard characters in seednames, the
concrete file system (a parameter), non-ASCII case folding, performance, mutation of arguments.

### How the model was checked against Python

The sandbox has Python but the code under study must not be run.  The *building blocks* were
compared with CPython's own standard library: the regex engine on 2480 (pattern, text) pairs, with all
patterns of the repository among them; number parsing and rounding on 3037 texts.
The .castep model was evaluated on the 89 literal texts of test/test_castep_parser.py (read as data): it
gives the expected values in all of them except the four tests the repository itself skips, and on the
three .castep data files it reproduces the stored reference JSON exactly.
The prediction of generated files was evaluated on the seven literal cases of
test/test_get_generated_files.py (read as data) and agrees with the expected lists; further
comparisons with literals of the test-suite are mentioned with the parsers below.
The parsers were evaluated in Lean on the sample files test/data_files/test.* and compared with the reference
JSON files stored beside them: bands, den_fmt, elf_fmt, chdiff_fmt, pot_fmt, err, xrd_sf, epme,
elastic, phonon, phonon_dos, efield, tddft, ts, magres, cell, param and md all agree exactly (there
is no reference for hug).

## 3. Outcome per property

"violated" means the code as written does not have the property; the refutation is a theorem
with a concrete witness, next to the part that does hold.

| id | property | status | theorems | remarks |
|----|----------|--------|----------|---------|
| C01 | Fortran unformatted files read back exactly | proved | `C01_records_roundtrip` |  |
| C02 | Skipping and rewinding a Fortran reader is exact navigation | proved | `C02_navigation`, `C02_opened`, `C02_rewind_too_far` |  |
| C03 | A truncated Fortran file loses nothing that was completely written | proved | `C03_truncation` |  |
| C04 | Binary values decode to what was encoded | proved | `C04_ints`, `C04_bools`, `C04_floats`, `C04_complex`, `C04_text`, `C04_scalar` |  |
| C05 | Malformed binary payloads are rejected, not misread | partial | `C05_bad_length`, `C05_scalar_count`, `C05_text_and_type`, `C05_complex_not_rejected`, `C05_complex_partial` | complex payloads of a wrong length are not rejected: negation proved with a witness, the remaining part is the _partial theorem |
| C06 | Reading a dictionary of records consumes exactly those records | proved | `C06_dict_exact`, `C06_dict_short` |  |
| C07 | Electrostatic potential grids are recovered exactly | partial | `C07_grid_partial`, `C07_single_plane_merged` | grids with at least two planes read back exactly; a single-plane file is merged differently (negation proved) |
| C08 | A failed section-header check leaves the reader at the offending record | partial | `C08_expected`, `C08_unexpected_partial`, `C08_first_record`, `C08_wrong_position` | on an unexpected header the reader is rewound by two records instead of one: proved, with the position it does leave |
| C09 | Line iteration reproduces the file | proved | `C09_linesOf_spec`, `C09_iteration`, `C09_lineno` |  |
| C10 | FileWrapper.rewind steps back exactly one line in any history | partial | `C10_history`, `C10_rewind_undoes`, `C10_lineno_drift`, `C10_lineno_partial` | line contents fully proved; lineno drifts when reading at the end of the file (negation proved) |
| C11 | Block extraction takes exactly the delimited lines | proved | `C11_no_start`, `C11_block`, `C11_eof`, `C11_cases` |  |
| C12 | Block.get_lines reads exactly n lines | partial | `C12_lines_partial`, `C12_eof`, `C12_exact_count_refused`, `C12_extra_line_lost` | the code violates the property (one line too many consumed); exact behaviour proved |
| C13 | A Block behaves as a rewindable cursor over its lines | partial | `C13_iteration`, `C13_history`, `C13_overrun` | proved for histories staying inside the block; an overrun witness shows why the restriction is needed |
| C14 | Block line numbers point at the right line of the file | proved | `C14_fresh`, `C14_next`, `C14_from_re`, `C14_remove_bounds`, `C14_remove_bounds_content`, `C14_get_lines_off_by_one` | proved for from_re, remove_bounds and nested blocks as stated; the analogous claim for get_lines, not part of the statement, is refuted by C14_get_lines_off_by_one |
| C15 | Lazy trajectory access is independent of history | proved | `C15_history`, `C15_get_frame` |  |
| C16 | Lazy trajectory indexing follows list semantics | proved | `C16_len`, `C16_iter`, `C16_index`, `C16_slice` |  |
| C17 | Lazy and eager trajectory readers agree | partial | `C17_agree_partial`, `C17_list_partial`, `C17_violated` | the readers agree on files whose separators are empty lines; files as CASTEP writes them (separators with blanks) are read differently (negation proved) |
| C18 | No trajectory frame is silently dropped or merged | partial | `C18_one_entry_per_frame_partial`, `C18_dropped`, `C18_merged`, `C18_violated` | violated by the code: separators with blanks merge the frames, a doubled empty line drops the rest (proved); holds for single empty separators |
| C19 | A trajectory frame is recovered field by field | proved | `C19_frame` | for lines of the printed form; gaps are any whitespace, tags any word other than the long names, time and ions |
| C20 | Comment stripping removes comments and nothing else | proved | `C20_initial`, `C20_inline`, `C20_idempotent` | for every nonempty list of comment strings; the patterns are built as trees, which is what compilation gives for strings without regex metacharacters |
| C21 | Normalised keys are canonical | proved | `C21_words`, `C21_words_exist`, `C21_idempotent`, `C21_case`, `C21_same`, `C21_alphabet` | ASCII letters and digits |
| C22 | Normalised strings are canonical | proved | `C22_words`, `C22_words_exist`, `C22_clean`, `C22_idempotent` |  |
| C23 | JSON normalisation leaves only JSON-representable data | proved | `C23_json_ready`, `C23_scalars`, `C23_scalars_eq`, `C23_total` |  |
| C24 | JSON key flattening loses no entry | partial | `C24_violated`, `C24_partial`, `C24_atoms`, `C24_bonds`, `C24_no_loss` | violated by the code: keys differing only in where an underscore comes from collide (witness); injectivity proved for underscore-free component texts |
| C25 | Flattening a nested dictionary keeps every leaf under its path | partial | `C25_violated`, `C25_partial`, `C25_no_sequences` | violated by the code for separators other than the default below sequences (witness); proved for the default separator, and for every separator without sequences |
| C26 | Accumulated columns stay rectangular | proved | `C26_columns`, `C26_rectangular` |  |
| C27 | Aliases add names and change nothing else | proved | `C27_aliases`, `C27_inplace` |  |
| C28 | Type conversion preserves structure | proved | `C28_structure`, `C28_idempotent`, `C28_raises`, `C28_fix_data_types` | complex(str) is not modelled; no code path converts text to complex |
| C29 | Every number found in a line is convertible | proved | `C29_convertible` |  |
| C30 | Numbers separated by blanks are all found, in order, unsplit | proved | `C30_complete`, `C30_tokens`, `C30_long_exponent` |  |
| C31 | The guessed type can always be converted to | partial | `C31_mixed_raises`, `C31_numbers_partial`, `C31_text_partial` | violated by the code: values whose first number is an integer but a later one is not raise ValueError (witness); exact behaviour proved for number lists and for words |
| C32 | Integers are recognised as integers | partial | `C32_negative_is_float`, `C32_single_partial`, `C32_sequence_partial` | violated for signed integers, which become floats (witness); exact behaviour proved |
| C33 | Atoms in a cell file get distinct consecutive indices | partial | `C33_fractional_partial`, `C33_absolute_partial`, `C33_absolute_default_partial`, `C33_negative_ratio`, `C33_tagged_dropped`, `C33_units_dropped` | proved for untagged capitalised symbols, numbers or unsigned ratios, optional spin, with distinct keys; violated for negative ratios, tagged or lower-case symbols, and units of the *_abs_intermediate/product blocks (witnesses); mixtures not covered |
| C34 | Symmetry operations are grouped by four rows | partial | `C34_operations_partial`, `C34_incomplete`, `C34_negative_ratio` | proved for rows of numbers and unsigned ratios, any number of operations; violated for negative ratios (witness); incomplete operations are an IndexError |
| C35 | Later settings override earlier ones, case-insensitively, comments ignored | proved | `C35_pieces`, `C35_last`, `C35_one_key`, `C35_comments`, `C35_case`, `C35_case_block`, `C35_bare_block` | bare %block lines excluded; their behaviour depends on a trailing comment (witness C35_bare_block); ASCII case mapping |
| C36 | An unterminated block in a cell/param file is an error | partial | `C36_unterminated_partial`, `C36_name_ignored` | violated by the code for blocks without an %endblock of their own name followed by another block: any %endblock closes any block (witness); proved for blocks after which no %endblock at all comes |
| C37 | Band structures keep every k-point and eigenvalue | proved | `C37_bands`, `C37_dropped` | for files as CASTEP writes them: eigenvalues with a decimal point and no exponent; any other eigenvalue line is silently dropped (witness); a header counting something called exactly 'bands' is excluded |
| C38 | Formatted grids keep columns aligned | partial | `C38_columns`, `C38_width_error`, `C38_width_partial`, `C38_no_columns` | alignment of columns and rejection of rows of the wrong number of values proved for all tables of printed numbers; rejection of short rows proved for any text when there is a value column, and refuted (witness) for a title naming no value column |
| C39 | Verbosity levels are nested | partial | `C39_levels`, `C39_full`, `C39_grows_partial`, `C39_full_false`, `C39_warning_false`, `C39_geometry_false`, `C39_raises_false` | violated: TEST_EXTRA_DATA is not part of FULL; raising MEDIUM to HIGH loses the line after an inline warning; raising LOW to MEDIUM moves the forces of the run into the first geometry iteration; LOW raises TypeError on a final configuration (witnesses); proved that the levels are strictly nested, that FULL has every other filter, and that for every file without geometry iterations and without a line that opens a section which reads on only when wanted, a larger set of filters returns every run and every entry of the smaller one |
| C40 | Filters select sections without changing how the file is cut | partial | `C40_only`, `C40_none_partial`, `C40_select_partial`, `C40_entry_partial`, `C40_none_false`, `C40_false` | violated: with no filters energies and three other entries are returned, and a warning swallows a line only when warnings are wanted (witnesses); proved, for every file and set of filters, that every entry comes from a section that is asked for, and that any two sets of filters give the same entries under any set of keys when the sections about which they do not agree write other keys and read no more lines than they skip |
| C41 | Each run in an appended .castep file is returned separately | partial | `C41_append_partial`, `C41_runs_partial`, `C41_false`, `C41_dropped_false`, `C41_warning_false` | violated: energies of earlier runs are lists and of the last run tuples, a run of which only the banner is read is dropped at low filter levels, and an inline warning swallows the banner after it (witnesses); proved, for all filters and texts, that the runs of a concatenation are those of the parts up to that representation when the parts start with the banner and an empty line precedes each banner |
| C42 | K-point coordinates are reported as printed | partial | `C42_exact`, `C42_partial`, `C42_dropped_false`, `C42_false` | violated: every k-point numbered 10 or more is dropped and the third coordinate is the first one once more (proved for all tables, plus a witness); exact result proved for every table, and the claim for tables of at most nine points with equal first and third coordinates |
| C43 | Bond populations keep what is printed | partial | `C43_exact`, `C43_partial`, `C43_zero_false` | violated: a spin printed as zero is not returned (proved for every table with one); the exact result is proved for every table with different bonds, and the claim when no spin is read as zero; atom labels in brackets are not covered |
| C44 | Repeated q-points are reported once | partial | `C44_entries`, `C44_partial`, `C44_twice_false` | violated: a list of texts is compared with tuples of floats, so a q-point printed twice is always reported twice (proved for every section without tables of characters); q-points printed with different numbers are reported once each |
| C45 | Stress and elastic tensors are assembled from the right entries | proved | `C45_stresses`, `C45_three`, `C45_six`, `C45_dynamical` | for all tables of printed numbers among lines without digits; a dynamical matrix whose real and imaginary parts differ in shape is a ValueError |
| C46 | Raman invariants are the documented tensor invariants | proved | `C46_invariants`, `C46_rounding`, `C46_raman` | the identity over every commutative ring, correct rounding of every addition, subtraction and product of finite doubles, and the entries of every Raman section; sum() is left as an arbitrary function of the list (its algorithm depends on the Python version) |
| C47 | The predicted file list is well formed | partial | `C47_sorted`, `C47_predicted`, `C47_castep_partial`, `C47_dotted` | violated for seednames with dots, whose suffix is stripped twice (witness); the sorting and the shape of the names are proved for all inputs; ASCII upper and lower case |
| C48 | write_none suppresses all optional output | proved | `C48_flags_ignored`, `C48_none` | for all parameters, cells and iteration orders; the file for Born charges, whose name is free, excepted |
| C49 | Every listed kind of output is predicted for some input | partial | `C49_reachable_partial`, `C49_unreachable` | violated: .recpot and .dbands_dstrain are unreachable for all inputs; every other kind is reached |
| C50 | The parser used is determined by the explicit choice, else by the extension | partial | `C50_function`, `C50_name_partial`, `C50_name_ignored`, `C50_extension`, `C50_unknown`, `C50_no_extension`, `C50_handle` | violated for binary formats and unknown names given as text: the name is silently ignored (witness); proved for all paths otherwise |
| C51 | Every requested file appears in the combined result | partial | `C51_all_partial`, `C51_twice` | violated for a path requested under two types (witness); proved for distinct paths given as text; several Path objects with json output (TypeError in json.dump) are outside the model |
| C52 | Command-line selection honours the type flags | partial | `C52_flags`, `C52_files_partial`, `C52_total`, `C52_dotted`, `C52_err_directory`, `C52_absolute` | violated for seeds with dots, error files of seeds in directories and absolute seeds (witnesses, the last for all absolute seeds); proved otherwise from the argparse namespace on; seeds with wildcard characters outside the model |
| C53 | Dumper selection is total and documented | proved | `C53_named`, `C53_yaml`, `C53_unknown` | for all names and sets of installed packages |
| C54 | Electron-phonon matrix-element binary files are read back completely | proved | `C54_epme_roundtrip` |  |
| C55 | Logical values are recognised in any letter case | proved | `C55_logical`, `C55_guess` | ASCII case mapping |
| C56 | A setting line gives its keyword and its typed value | partial | `C56_numbers_partial`, `C56_unit_partial`, `C56_text`, `C56_unit_false`, `C56_tab_false`, `C56_mixed_false` | violated: two blanks before a unit lose the setting or put the separator into the value, numbers separated by tabs and rows starting with a whole number followed by another kind raise ValueError (witnesses); proved for every keyword, separator, comment, text, and row of numbers with or without unit otherwise |
| C57 | The predicted file list does not depend on hash randomisation | partial | `C57_order_partial`, `C57_order_matters` | violated with several functionals and generated pseudopotentials (witness); proved otherwise |
| C58 | YAML output holds plain lists | partial | `C58_yaml_partial`, `C58_pyyaml` | violated for the format pyyaml (witness); proved for yaml and ruamel |
| C59 | The header of the smaller files is read exactly | proved | `C59_header`, `C59_header_no_option`, `C59_atoms` | for the option of band structure files and for no option, where every other line lands under the empty name |
| C60 | An error file is split into message and trace | proved | `C60_err`, `C60_err_total`, `C60_no_stack` | for every file that names the trace stack; any other file raises StopIteration (proved) |
| C61 | A Hugoniot file gives four aligned columns | proved | `C61_hug`, `C61_needs_blank` | for rows that start with a blank, as CASTEP writes them; other rows are silently dropped (witness) |
| C62 | An .efield file gives its header and the rows of its tables | partial | `C62_exact`, `C62_partial`, `C62_permittivity_false`, `C62_oscillator_false` | violated: the last row of every table is dropped (proved for every non-empty permittivity table), and the columns of the oscillator strengths are shifted by one (witness); the exact result is proved for every file of headers and tables |
| C63 | A .phonon_dos file gives its header, gradients and density of states | partial | `C63_exact`, `C63_partial`, `C63_last_false`, `C63_species_false` | violated: the last row of every density of states is dropped (proved for every table), and a repeated or labelled species raises re.error (witness); the exact result is proved for every file of headers, gradients and tables |
| C64 | Forces, positions and velocities are reported for the right atom | proved | `C64_forces`, `C64_vectors` | for every title of letters and blanks and every table of distinct atoms among lines without digits; an atom listed twice keeps the later vector |
| C65 | The unit cell is reported from the right columns | proved | `C65_cell` | for every block whose lines hold numbers separated by other text; the printed powers of units count as numbers (a volume line has two), so a density printed without one would be left out |
| C66 | Every SCF cycle is reported with its own numbers, details and notes | partial | `C66_partial`, `C66_gain_as_fermi`, `C66_no_fermi_false`, `C66_initial_lost`, `C66_dotted_lost` | violated: in a table without the column of the Fermi energy (fixed occupancies) the gain is reported as the Fermi energy and the first row is dropped (proved for every such row), and contributions with a full stop in their name are lost (witness); proved for every table with the column, with any items between the rows |
| C67 | A .phonon file gives its header and every q-point | proved | `C67`, `C67_branches`, `C67_vectors`, `C67_marks`, `C67_before`, `C67_large_false` | for every file whose header comes first (a line before it raises UnboundLocalError, proved for every such file); the text that ends the eigenvectors is proved to be in the last line only for fewer than a thousand branches, and to be found among the decimals for a thousand ions (witness) |
| C68 | A .magres file gives its sections as printed | proved | `C68`, `C68_order`, `C68_calculation_blank`, `C68_atoms_glued`, `C68_magres_blank` | for every file with the three sections in the order CASTEP writes them, with or without the old section; the rejections hold for every such file, whatever follows |
| C69 | The old section of a .magres file gives every tensor and the documented data of every atom | partial | `C69_partial`, `C69_lost`, `C69_violated`, `C69_names` | violated: only the last tensor is kept (files that differ in the others read the same, proved for every such pair, with a witness), and eigenvalues and eigenvectors are never under their documented names but under misspelt ones; the exact result is proved for every file |
| C70 | An .epme file gives every matrix element with its k-points, and incomplete rows are not accepted | partial | `C70_partial`, `C70_rejected`, `C70_cut`, `C70_cut_false` | violated: a row cut after five to twelve columns is accepted, with shortened velocities and zeros for the missing parts of the matrix element (exact result proved for every such file, with a witness); rows with fewer than five columns always raise ValueError, and files of complete rows are read exactly |
| C71 | A .tddft file gives its header, every overlap and every excitation | partial | `C71_partial`, `C71_band`, `C71_violated` | violated: the highest occupied band is looked for in a misspelt form and never reported, files that differ only in that line read the same (proved for every such pair); everything else is exact for every file made of headers, overlaps, spectra and other lines |
| C72 | A .ts file gives every structure of a transition state search | partial | `C72_partial`, `C72_eof`, `C72_rejected`, `C72_violated` | violated: a first line TSTYPE with another type of search has the mark TST, is taken for the title of a structure and raises TypeError (proved for every such type and every rest of the file); files in which only titles and confirmations have a mark are read exactly, also without the last blank line |
| C73 | An .elastic file gives its header, every matrix with its unit, and the internal strain of every atom | partial | `C73_exact`, `C73_partial`, `C73_violated` | violated: the rows of the internal strain have seven components, the first being the number of the atom (proved for every internal strain with rows); header and matrices are exact for every file made of headers, matrices, internal strains and other lines, and so is everything else about the internal strain |
| C74 | An .xrd_sf file gives every structure factor as complex numbers, with their reciprocal lattice vectors | proved | `C74`, `C74_reject` | for every file of a head line and rows; the file is a dictionary up to the order of its keys, which the theorem leaves open as the code does; a blank line (also at the end) raises AttributeError (C74_reject) |
| C75 | Mulliken populations give every atom its shells, charge and spin, for one spin or two | proved | `C75` | lines without digits between the atoms are ignored; the atoms are distinct; the sum of the totals is the sum of the two doubles |
| C76 | Hirshfeld charges, initial spins and Born charges give every atom its own numbers | partial | `C76_hirshfeld_partial`, `C76_hirshfeld_mantissa`, `C76_exponent_false`, `C76_spins`, `C76_born_partial` | violated: of a Hirshfeld charge with an exponent only what precedes it is reported (exact result for every table, with a witness); the spins are exact, Born charges for first rows without exponents |
| C77 | Orbital populations and displacement parameters are grouped under the right atom or temperature | proved | `C77_orbitals`, `C77_displacements`, `C77_nested` | C77_nested says what the grouping is; orbitals S, P, D, F with an optional x, y or z, as the pattern accepts; the totals come after the rows, as CASTEP prints them |
| C78 | The thermodynamics table gives its columns and the zero-point energy | proved | `C78`, `C78_columns` | the zero-point energy comes before the rows; without it the columns alone |
| C79 | Quantities printed one to a line are reported under their names | partial | `C79_finalisation`, `C79_rejects`, `C79_solvation`, `C79_solvation_name_false` | violated: a solvation energy whose name contains a number is reported as that number (C79_solvation_name_false); what is reported is the first number of the line (C79_solvation). LastWins determines the dictionary (Lemmas: LineTab.lastWins_unique) |
| C80 | Occupancies, line minimisations and dipoles are read line by line | proved | `C80_occupancies`, `C80_rejects`, `C80_line_min`, `C80_dipole` | the numbers of a line are those of get_numbers (HasNumbers); total charges with no T before the word Total |
| C81 | A band structure table is reported k-point by k-point, with the bands printed below each | proved | `C81`, `C81_orphan` | the number of the k-point is matched but not part of what is reported, as in the code |
| C82 | A whole .castep file: what is returned is what its sections say | proved | `C82`, `C82_quiet` | the phrases are the table TRIGGERS in Spec/CastepDoc.lean (one entry for each of the 91 branches, proved to cover its pattern); a title must have none of the phrases of the branches before its own; or be no title between stars where these have to be; rows as in C43, C45, C64-C66, C75-C78 and C81; electronic minimisations with the Fermi energy, Hirshfeld and Born charges without exponents; the other sections are not part of Doc |
| C83 | A .castep file of several runs: the runs are reported separately | proved | `C83` | the same sections and text as C82; the banner starts with Compiled for, possibly indented; several banner lines may have the same name, the last value is kept |
| C84 | Molecular dynamics in a .castep file: every step has its own report | proved | `C84`, `C84_table`, `C84_unwanted`, `C84_empty` | steps are made of the sections and text of C82 (no memory estimate); the entries a file adds to a run are Item.after in Spec/CastepDoc.lean; MD Data rows with a decimal point and no exponent; a row such as T/=0 Pressure, whose name has other characters, is not reported, as in the code and its test |
| C85 | Geometry tables of a .castep file: every row under its own key with its own numbers | proved | `C85` | LastWins determines the dictionary; names of criteria without spaces, as printed |
| C86 | Memory estimates of a .castep file: every row of the estimate is reported | partial | `C86_partial`, `C86_lost`, `C86_violated` | violated: rows whose text has a character other than letters and spaces before the numbers are lost, among them the total (Approx. total storage) and the first row CASTEP prints (Baseline code, static data): the estimate reads as if they were not there (proved for every such row and all other lines, with a witness); the other rows are exact |
| C87 | Geometry optimisation in a .castep file: the iterations of a run | proved | `C87`, `C87_unwanted`, `C87_empty` | for the sections of C82/C83; an enthalpy is not both in lines of its own and in tables of molecular dynamics of the same run or iteration (Sound); every iteration has a section that is wanted, C87_empty being the other case; a line with an enthalpy leaves a geom_opt, perhaps empty, in the iteration it is in |
| C88 | Parameters of a .castep file: every option under its name in its group | partial | `C88_partial`, `C88_violated_digits`, `C88_violated_colon` | violated: an option whose text begins with digits, such as the name of a file 2H-MoS2.check, raises ValueError and loses the whole file (proved for every such text and all lines around it), and of a value with colons only what follows the last one is kept, the rest going into the name (witness); otherwise exact. Blocks of developer code within the list are not covered |
| C89 | Delta SCF: every state with its own band, spin, population and file | partial | `C89_partial`, `C89_violated` | violated: a line on a file whose name contains spin is taken for the line with the spin of the last state: that spin is replaced by the first number of the name and no file is reported (proved for every report and every such line); the same holds for names with nr. or MODOS state, which C89_partial excludes; otherwise exact |
| C90 | Internal constraints: every constraint with its values and all its ends | partial | `C90_exact`, `C90_partial`, `C90_violated` | violated: the ends are a dictionary with the atoms as keys, so of a constraint between an atom and an image of it an end is lost (proved for every table with such a row); C90_exact gives the result for every table, C90_partial for constraints between different atoms |
| C91 | Delocalised internal coordinates: mapping of constraints, numbers of primitives, active space | proved | `C91`, `C91_active` | LastWins determines the dictionaries; a line of the active space with several of the texts gives its first number for each, as in the code |
| C92 | Dispersion correction: parameters and the coefficients of every species | partial | `C92_partial`, `C92_violated` | violated: a row of a species with a tag has one colon, is taken for a named line and lost for the species (proved for every report and every such row); otherwise exact. No line is named species |
| C93 | Elastic properties: every modulus under its name, speeds of sound as a matrix | proved | `C93` | names without digits (the numbers are those of the whole line, as in the code); LastWins determines the dictionary |
| C94 | Excitation energies, samples of the electron localisation function, symmetry analyses | proved | `C94_excitations`, `C94_samples`, `C94_symmetry` | types of one word; samples in decimal notation without exponent, in indented lines |
| C95 | Symmetry and constraints: groups, counts, operations and constraints | partial | `C95_partial`, `C95_violated` | violated: the line of related atoms of a species with a tag has two colons, the unpacking raises ValueError and the file cannot be parsed (proved after any part of a report). C95_partial has no such species; reports with the table of ionic constraints (iprint > 1) are not covered; LastWins determines the dictionaries |
| C96 | Properties of species: each table sets its property of its species and nothing else | partial | `C96_mass_partial`, `C96_quadrupole`, `C96_pseudopot_partial`, `C96_violated` | violated: a species label or a file name with a blank in it gives a row of more than two words and the unpacking raises ValueError (proved for any table with such a row); the _partial theorems have rows of two words, and pseudopotentials that are not taken apart with PSPOT. Sets fixes every property of every species and every other key of the run |
| C97 | Projectors of pseudopotential definitions: every projector with its type, radius, energy and shift | partial | `C97_partial`, `C97_violated` | violated: the sign of the energy of a projector stands outside the group of the regular expression, so a negative energy is reported as positive: proved for all shells, the result is that for the absolute values of the energies; C97_partial has no negative energies. Numbers are written without exponent |
| C98 | Pseudopotential definitions: every part of the string is reported | partial | `C98_partial`, `C98_violated` | violated: a definition with a local energy, such as 0.5=2|..., raises ValueError: the expression wants a blank before the local energy (proved for every unsigned energy and every definition without the mark of a fit); C98_partial has no local energy and no negative energies of projectors (see C97) |
| C99 | Linear constraints of .cell files: the coefficients for each atom | partial | `C99_single`, `C99_partial`, `C99_violated` | violated: the expression for a line has a single digit for the number of the constraint, so from the tenth constraint on all lines are dropped without any message (C99_single says what is given for every block, C99_violated that a block with numbers of two digits gives nothing); C99_partial has single digits |
| C100 | Numeric blocks of .cell files: the rows and the units | partial | `C100_partial`, `C100_violated` | violated: units with a digit, such as ev/ang**3 for pressures, give a row with the exponent instead of units; C100_partial has units without digits, and no negative ratios (see C34) |
| C101 | Blocks of species properties in .cell files: one value for each species | partial | `C101_partial`, `C101_small` | for a species in small letters the name is lost and the value becomes a row of numbers (C101_small); C101_partial has species with a capital letter and without a label in brackets |
| C102 | Definitions of functionals in .param files: weights and parameters | proved | `C102` | LastWins determines the dictionaries; every line has a value that does not begin with a blank |
| C103 | Pseudopotentials of .cell files: names as written, definitions taken apart | partial | `C103_partial` | definitions are those of C98_partial: no local energy, no negative energies of projectors (C97_violated, C98_violated); names of files have no vertical line; LastWins determines the dictionary |
| C104 | Constraints on distances and angles in .cell files: the atoms and the cells they are in | partial | `C104_exact`, `C104_partial`, `C104_violated` | violated: the atoms of a constraint are the keys of a dictionary, so of an atom and its own periodic image only one is reported (C104_exact says what is given for every block); C104_partial has constraints between different atoms |
| C105 | Parameters of dispersion corrections in .cell files: units and values of each species | partial | `C105_partial`, `C105_violated` | violated: without a line of units, a first line of two words such as `H C6:0.0` is taken for the units and the species is missing; C105_partial has first lines that are not of two words, and numbers ending with a digit (of `2.` only 2 is read, as an integer); LastWins determines the dictionaries |
| C106 | Hubbard U values in .cell files: the shells of each species or atom | partial | `C106_partial` | shells are named with small letters, species have no label in brackets, numbers end with a digit (of `2.` only 2 is read, as an integer); LastWins determines the dictionaries |
| C107 | Pseudoatoms of .castep files: the energy and the spilled charge of each species | proved | `C107` | the function on the lines of the block; the product is the double nearest the product of the two doubles |
| C108 | Reports on pseudopotentials in .castep files: orbitals, projectors and the definition | partial | `C108_partial`, `C108_violated` | violated: the row with the definition in quotes adds nothing, whatever the report (C108_violated); C108_partial has everything else; rows that are neither an orbital nor a projector begin with a character other than a digit or l, or have no digit; the ionic charge has a decimal point and no exponent; LastWins determines the other entries |
| C109 | Final configuration of a geometry optimisation in .castep files: cell, atoms and quantities | proved | `C109` | the function on the lines of the block; names of minimisers in capitals, quantities with a decimal point or an exponent (a whole number such as `= 5 GPa` is not matched by the pattern); atoms of a table have different names; LastWins determines the dictionary |
| C110 | Berry phase polarisation in .castep files: every vector, table, quantum and ionic contribution is reported | proved | `C110` | the function on the lines of the block; rows of tables have no equals sign, titles of tables other than that of the ions contain none of Ionic, Elec and Total, rows of a table per volume and ions have different names; a direction is a key of floats, represented by their bits (so 0.0 and -0.0 are different keys in the model, equal in Python); LastWins determines the dictionaries |
| C111 | NMR tables of .castep files: every value of every atom is reported | proved | `C111` | the function on the lines of the block; there is a blank after the first bar and before the last; the asymmetry has a decimal point and no exponent (the pattern takes nothing else, and CASTEP prints two decimals); the last of repeated atoms is reported; LastWins determines the dictionary |
| C112 | Parameters of pair potentials: every value is reported under its potential and name | partial | `C112_partial`, `C112_false` | violated: on a row without a unit the expression takes the last digit of the value for the unit, so 1.5 is reported as 1 (C112_false); C112_partial has rows with units. The blocks of two-body and three-body terms are modelled, not proved about |
| C113 | devel_code blocks: settings, flags and sub-blocks are reported, and nothing else | partial | `C113_partial`, `C113_violated`, `C113_block_violated` | violated: parts of values are reported as flags (tol=1e-5 gives an entry with an empty name, file=start.cell an entry cell), and of a sub-block only the text up to the second colon is read, so settings written with colons in it are lost. C113_partial: every setting written with an equals sign is in the dictionary with its value, whatever other words there are, and every other word of letters and underscores is there with None unless a setting has its name; names are different after normalisation; no colons; the closing line names the block (any letter case, spacing and comment) |

## 4. Findings in the code

Defects found while modelling, each a theorem of the model unless marked (reading only).

* `filewrapper.py`: `get_lines(n)` consumes n+1 lines and refuses blocks of exactly n lines at the end of the file (C12); the line number advances at every read past the end (C10); a block overrun loses position (C13).
* `fortran_bin_parser`/`cst_esp`: complex payloads of the wrong length are truncated silently (C05); a single-plane potential file is merged differently from larger ones (C07); an unexpected header leaves the reader one record too far back (C08).
* MD/geom readers: separators with blanks (as CASTEP writes them) make the eager reader merge all frames; a doubled empty line drops the rest; the lazy and the eager reader disagree (C17, C18).
* `determine_type`/`to_type`: signed integers become floats (C32); a value whose first number is an integer and a later one is not raises `ValueError` (C31).
* `json_safe`: keys that differ only in where an underscore comes from collide, losing an entry (C24).  `flatten_dict` does not pass its separator on below sequences (C25).
* cell/param files: any `%endblock` closes any block (C36); negative ratios are split into two numbers (C33, C34); tagged and lower-case species in positions are dropped silently (C33); the units line of `*_abs_intermediate`/`_product` blocks is dropped (C33); a bare `%block` line is ignored or an error depending on a trailing comment (C35); `cut_off_energy: 300  eV` with two blanks is ignored, and `cut_off_energy : 300  eV` gives the text `: 300  eV` (C56); numbers separated by tabs raise `ValueError` (C56).
* generated files: seednames with dots are stripped twice (C47); `.recpot` and `.dbands_dstrain` can never be predicted because `is_usp` is always true (C49); with several functionals the names of pseudopotential files depend on hash randomisation (C57).  (Reading only: theory names taken from `XC_TO_PS_THEORY` are lower case where the default is upper case.)
* command line: a parser given by the name of a binary or unknown format is silently ignored (C50); a path requested under two types keeps one result (C51); seeds with dots, error files of seeds in directories, and absolute seeds are mishandled, the last by `NotImplementedError` (C52); the format `pyyaml` is not normalised (C58).  (Reading only: `yaml` is documented but is not among the choices of `-f`; several `Path` objects cannot be dumped as JSON.)
* formatted grids: with no value columns, rows that are too short are accepted (C38).
* smaller parsers, found while modelling (reading and conformance runs of the model; theorems where a claim is named): `.efield` drops the last row of both tables and shifts the oscillator-strength columns; `.phonon_dos` drops the last row; a spin-polarised `.bands` header ("Number of electrons a b", "Fermi energies") is read wrongly and eigenvalues that are not plain decimals are dropped; `.tddft` looks for the misspelt option "Higest occupied band"; a blank line in a `.magres` header is an `IndexError`/`ValueError`, and `[magres]` before `[calculation]` leaves `version` unbound; `.phonon` lines before the header leave a local unbound; a line of `.xrd_sf` that does not match is an `AttributeError`.
* `.castep` runs: the energies are lists in every run but the last, where they are tuples (C41); a run with nothing but the banner is dropped when `SYS_INFO` is not wanted (C41); an inline warning swallows the first line after it, even a banner, so two runs are merged (C41).
* `.castep` filters: `Filters.NONE` still returns energies, supercell, dE/dlnE and trial steps (C40); the inline warning, title, cut-off and applied-field branches read further lines only when they are wanted, so that filters change how the rest is cut (C39, C40); `Filters.LOW` asks for the final configuration but not for the geometry iterations, and `curr_run["geom_opt"]` is then a list: a geometry optimisation cannot be read at this level, TypeError (C39); `TEST_EXTRA_DATA` is not in `FULL`/`ALL` (C39).
* `.castep` tables: k-points numbered 10 and above are dropped and the third coordinate of each is the first one (C42); a bond's spin printed as zero is missing (C43); the check for q-points printed twice compares texts with floats and never fires (C44).
* `.efield` files: `remove_bounds(1, 2)` drops the last row of both tables, so that a table of one row vanishes, and the number of the mode stands under `freq`, the frequency under `xx`, and so on (C62).  `.hug` rows without a leading blank are dropped (C61).  An `.err` file that does not name the trace stack raises `StopIteration` (C60).
* `.phonon_dos` files: the last row of the density of states is dropped in the same way; names of species become names of groups, so that a repeated or labelled species raises `re.error` (C63).  As no option is looked for, header lines land under the empty name.
* SCF tables of `.castep` files: without the column of the Fermi energy, as for fixed occupancies, the energy gain is reported as `fermi_energy`, `energy_gain` is `None`, and the row `Initial` is not reported; contributions such as `NB est. 0K energy (E-0.5TS)` are lost because of the full stop in their name (C66).
* `.phonon` files: any line before the header, even a blank one, raises `UnboundLocalError`; with a thousand ions or more the text that ends the eigenvectors, the two numbers in four columns each, has no blanks and can be found among the decimals of a component, and the file is then rejected (C67).
* `.magres` files: of the total shielding tensors of the old section only the last is kept; eigenvalues and eigenvectors are under `eigvenvalue` and `eigvenvector`, never under the documented names (C69); `[magres]` before `[calculation]` raises `UnboundLocalError`, a blank line raises `ValueError` in `[calculation]` and `IndexError` in `[magres]`, and an atom whose number fills its columns is handled in `[magres]` but raises `ValueError` in `[atoms]` (C68).
* `.epme` files: a row that is cut off after five to twelve of its thirteen columns is accepted, what is missing of the matrix element is reported as zero (C70).  (Reading only: the documented key `freq` is never set.)
* `.tddft` files: the header line `Highest occupied band` is looked for as `Higest occupied band` and so never reported (C71).
* `.ts` files: any search that is not a confirmation is rejected, since its first line (` TSTYPE LSTMaximum`) contains `TST`, is taken for a structure, and the title is then not found (`TypeError`) (C72).
* `.elastic` files: each row of the internal strain is reported with seven components, the number of the atom being taken for the first (also in the expected values of the test); the direction is not reported (C73).
* `.xrd_sf` files: a blank line, even at the end, raises `AttributeError` (C74_reject).
* Tables of `.castep` files that use `FNUMBER_RE` (Hirshfeld charges, first row of the Born charges): a number printed with an exponent is cut before it, `-1.0E-01` becomes `-1.0` (C76_exponent_false).
* Solvation energies: the first number of the whole line is taken, so `Shell 1 energy = 5 eV` gives 1 (C79_solvation_name_false).
* Molecular dynamics in `.castep` files: the steps (and the geometry iterations) are parsed by a recursive call without filters, so with the default ones whatever the caller asked for (C84); a step of which the default filters want nothing raises `ValueError` (C84_empty); the row `T/=0 Pressure` is dropped because its name is not made of letters; numbers with exponents are cut as elsewhere (C84_table excludes them).
* **C86** – `_process_memory_est` matches `\|([A-Za-z ]+)` before the numbers, so rows with a comma or a full stop in
  their text never match: `Baseline code, static data and system overhead` and, worse, `Approx. total storage required
  per process` are missing from every report. `C86_lost` (for every such row, whatever is around it), `C86_violated`
  (two estimates with different totals read the same). The test of the repository has both rows in its text and
  neither in the expected value.
* Geometry optimisation in `.castep` files (C87): an enthalpy inside an iteration leaves `"geom_opt": {}` in that iteration;
  any line of only `=` signs that starts in the first column, such as a ruler of the Hirshfeld table, ends an iteration (the second one does), what follows then being
  taken as part of the run; an iteration of which the default filters want nothing raises `ValueError` (C87_empty).
* Parameters of `.castep` files (C88): the type of a value is guessed from the beginning of its first word, and the
  whole word is then converted. So `write checkpoint data to : 2H-MoS2.check` raises `ValueError`, and the file cannot be
  parsed with the default filters (C88_violated_digits, for every text of digits followed by another character). A value
  with a colon is cut at its last colon, the rest ends up in the name (C88_violated_colon).

* Delta SCF in `.castep` files (C89): the tests on a line are `in` tests, in the order `MODOS state`, `nr.`, `spin`,
  `Population of state`, `Writing file`; a line `Writing file spin_2_1.orbital` is thus taken for a spin: the spin of the last
  state is overwritten and the file lost (C89_violated).
* Internal constraints (C90): the ends of a constraint are a dictionary with atoms as keys, so a bond between an atom and its
  own image in the next cell is reported with one end (C90_violated).

* Dispersion correction (C92): any line with exactly one colon is a named line, so the row of a species with a tag
  (`x  H:D   1.4510  1.0010 (default)  x`) becomes `"x_h": "D 1.4510 1.0010 (default) x"` and is missing under `species` (C92_violated).

* Symmetry analyses of phonons (C94): a row with a negative whole number is reported as floats, a row of unsigned whole numbers as ints.

* Symmetry report (C95): the line of related atoms `H:D:    1    2` of a species with a tag makes `key, val = line.split(":")` raise
  `ValueError`, so the file cannot be parsed if symmetries are asked for (C95_violated).

* Species tables (C96): a pseudopotential file in a directory with a blank in its name, or a species label after a blank, makes
  `for key, val in _process_spec_prop(block)` raise `ValueError`, so the file cannot be parsed (C96_violated).

* Pseudopotential definitions (C97): `(?:=[+-]?|[+-])` in `PSPOT_PROJ_RE` takes the sign of a projector's energy and is not part of the
  group `beta_e`, so `30U-1.1` and `30U=-1.1` are reported with the energy 1.1, exactly as `30U+1.1` (C97_violated).

* Pseudopotential definitions (C98): `labelled_floats(("local_energy",), suffix="=")` keeps its default separator of at least one blank, so
  a definition with a local energy (`0.5=2|...`) never matches `PSPOT_INFO_RE` and `ValueError` is raised (C98_violated).

* Linear constraints (C99): `IONIC_CONSTRAINTS_RE` has `^\s*\d\s+` for the number of the constraint.  Lines of the tenth and later
  constraints do not match and are dropped without any message (C99_single, C99_violated).

* Numeric blocks (C100): a line with the units is recognised by having no number in it, so `ev/ang**3` (a unit of pressure) is read as a
  row of data with the number 3, and the units are missing (C100_violated).
* Species properties (C101): `SPEC_PROP_RE` wants a capital letter; for `h 2` the species is lost and the value becomes a row of
  numbers (C101_small).
* Constraints on distances and angles (C104): the atoms are keys of a dictionary, so a distance between an atom and an image of the same
  atom in another cell is reported with one atom (C104_violated).
* Dispersion corrections (C105): a first line of two words is taken for the units of energy and distance, so in a block without units
  whose first line is a species with a single value, such as `H C6:0.0`, the species is reported as the unit of energy (C105_violated).
* Values after a colon (C105, C106): `COLON_SEP_RE` ends with a word boundary, so of `d: 2.` only the 2 is read and becomes an integer.
* Reports on pseudopotentials (C108): the pattern for a definition, `PSPOT_FULL_LAZY`, is anchored at the beginning of the line, but the
  row of the report begins with blanks, a vertical line and a quote; the entry `detail` is never made (C108_violated).
* Final configuration (C109): a quantity printed as a whole number, without a decimal point or an exponent, is not reported, since the
  pattern takes only real numbers. CASTEP prints real numbers there.
* Berry phase (C110): the keys of the table of quanta are tuples of floats; in the model a float in a key is represented by its bits, so
  that -0.0 and 0.0 are different keys there and the same key in Python. In a verbose report the polarisation tables of phases and of
  e bohr are lost at the level of the run: the second block of the report comes with its own `polarisation` entry, and `update` replaces
  the first (castep_file_parser.py:1344-1356). The test of the project expects this.
* NMR tables (C111): in a table of J-couplings the perturbing nucleus, printed with `--.--` for each value, is not reported; nothing in the
  result says which nucleus it was.
* Pair potentials (C112): the expressions for parameters want a unit of at least one character (`[\w^/*]+`, castep_res.py:403-411 and
  421-429). On a row without a unit, which CASTEP prints for `DZ` and `SW`, the number gives up its last digit for it: `1.5` is read as `1.`.
  The test of the project has only values ending with 0 on such rows. Proved as `C112_false`.
* `devel_code` (C113): the expression for flags (cell_param_file_parser.py:387-391) is applied to the whole text, values included: the sign in
  `tol=1e-5` gives an entry with an empty name, `file=start.cell` an entry `cell` (`C113_violated`). A sub-block is cut at its second colon
  (`blk.group(0).split(":")[1]`, line 352): `PP: T:1 NL:2 :endPP` gives `{"pp": {"data": [True]}}` (`C113_block_violated`). In a sub-block
  `T=1 T=12` leaves a `2` among the data, because the text of the first setting is removed from that of the second as well (line 359).
* Read in the code, not stated as theorems: the dispersion-corrected energy is stored under the misspelt key `disperson_corrected`
  (castep_file_parser.py:540); in a general block any line without a number, such as `BREAK` in a k-point path, is stored as the units
  (cell_param_file_parser.py:699-700); an empty `sedc_custom_params` block takes its own closing line, which has two words, for the units
  (cell_param_file_parser.py:552-554).

## 5. Mutation experiments

`seeded/LOG.jsonl` records each wrong program tried: a scratch copy of the Lean project gets one
definition of the model edited as a realistic bug would, and the property files are rebuilt.  An
entry lists the theorems that then fail.  Edits that no theorem noticed led to new or tighter
theorems, named in the entry.  One edit (`firstIteration`) was left unnoticed because no run of the
model reaches the state it concerns; its entry says so.  In many entries the failure shows in a helper
lemma first, so that the property theorems depending on it were not built: these modules are listed as
blocked, and the theorem itself was not shown false there.
