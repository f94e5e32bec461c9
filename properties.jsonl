{"id": "C01", "title": "Fortran unformatted files read back exactly", "statement": "Iterating a FortranBinaryReader over a file made of the records r1..rn (each written as 4-byte big-endian length, data, 4-byte length) yields exactly r1..rn, in order, byte for byte, and then stops; in particular an empty record is yielded as an empty record and does not end the iteration.", "quantifier": "every finite list of records whose lengths fit the 4-byte marker, with arbitrary bytes in them", "why_tests_cant": "record contents may themselves look like length markers or be empty; a test tries a few files only", "anchors": ["castep_outputs/bin_parsers/fortran_bin_parser.py::FortranBinaryReader.__next__", "castep_outputs/bin_parsers/fortran_bin_parser.py::FortranBinaryReader.__iter__"]}
{"id": "C02", "title": "Skipping and rewinding a Fortran reader is exact navigation", "statement": "After any interleaving of next(reader), reader.skip(n) and reader.rewind(n) that never steps outside the file, the next record returned is the record whose index is the running sum of the moves; rewind(n) undoes n reads whatever the sizes of the records involved.", "quantifier": "every well-formed file and every in-range history of next/skip/rewind operations", "why_tests_cant": "position arithmetic depends on the sizes of all records stepped over; histories are unbounded", "anchors": ["castep_outputs/bin_parsers/fortran_bin_parser.py::FortranBinaryReader.skip", "castep_outputs/bin_parsers/fortran_bin_parser.py::FortranBinaryReader.rewind"]}
{"id": "C03", "title": "A truncated Fortran file loses nothing that was completely written", "statement": "If a well-formed file is cut at any byte (crash of the writer), iteration still yields every completely written record unchanged and in order, followed by at most one further item, which is a prefix of the record being written at the cut; no exception is raised.", "quantifier": "every well-formed file and every cut point", "why_tests_cant": "the cut point ranges over every byte of every file, including inside the length markers", "anchors": ["castep_outputs/bin_parsers/fortran_bin_parser.py::FortranBinaryReader.__next__"]}
{"id": "C04", "title": "Binary values decode to what was encoded", "statement": "parse_bytes inverts the Fortran encodings: a record of big-endian 32-bit integers decodes with (int, ...) to exactly those signed integers, with (bool, ...) to their non-zeroness, a record of doubles with (float, ...) to those doubles, a record of 2n doubles with (complex, ...) to the n pairs, and ASCII bytes with str to that text; a scalar type returns the value exactly when there is exactly one.", "quantifier": "every list of values of each type", "why_tests_cant": "sign handling, element order and grouping must be right for all 2^32 / 2^64 patterns and all lengths", "anchors": ["castep_outputs/utilities/type_conv.py::parse_bytes", "castep_outputs/utilities/type_conv.py::_parse_int_bytes", "castep_outputs/utilities/type_conv.py::_parse_bool_bytes", "castep_outputs/utilities/type_conv.py::_parse_float_bytes", "castep_outputs/utilities/type_conv.py::_parse_complex_bytes", "castep_outputs/utilities/type_conv.py::_parse_str_bytes", "castep_outputs/utilities/utility.py::get_only"]}
{"id": "C05", "title": "Malformed binary payloads are rejected, not misread", "statement": "parse_bytes raises (struct.error) whenever an int/bool payload length is not a multiple of 4 or a float payload length is not a multiple of 8; a scalar request on an empty or multi-element payload raises ValueError; non-ASCII text raises UnicodeDecodeError; an unsupported type form raises TypeError.  A complex payload whose length is not a multiple of 16 should also be rejected.", "quantifier": "every byte string and every requested type", "why_tests_cant": "needs every residue of the length and every type form; the complex case silently drops half a value", "anchors": ["castep_outputs/utilities/type_conv.py::parse_bytes", "castep_outputs/utilities/type_conv.py::_parse_complex_bytes", "castep_outputs/utilities/utility.py::get_only"]}
{"id": "C06", "title": "Reading a dictionary of records consumes exactly those records", "statement": "get_dtype_dict(d) on a reader with at least len(d) records left returns a dict with exactly the keys of d in order, each holding its own record decoded, and leaves the reader just after the last of them; with fewer records left it returns a shorter dict and raises nothing.", "quantifier": "every ordered mapping of key to type and every file", "why_tests_cant": "off-by-one consumption of the paired iterators only shows for particular remaining counts", "anchors": ["castep_outputs/bin_parsers/fortran_bin_parser.py::FortranBinaryReader.get_dtype_dict", "castep_outputs/bin_parsers/fortran_bin_parser.py::FortranBinaryReader.get"]}
{"id": "C07", "title": "Electrostatic potential grids are recovered exactly", "statement": "parse_cst_esp_file on a file written plane by plane returns every value at its own [nx][ny][nz] place, with the optional meta-GGA grid split off at grid[0] planes and nothing lost or duplicated.", "quantifier": "every grid shape, every complex content, with and without the meta-GGA part", "why_tests_cant": "the splitting relies on run lengths of the plane index; edge shapes (a single plane) are not tested", "anchors": ["castep_outputs/bin_parsers/cst_esp_file_parser.py::parse_cst_esp_file"]}
{"id": "C08", "title": "A failed section-header check leaves the reader at the offending record", "statement": "When an epme_bin section header is not the expected one, the check raises ValueError naming it and the reader is repositioned so that the offending record is the next one read.", "quantifier": "every file, every position and every expected header", "why_tests_cant": "depends on the sizes of the neighbouring records; tests only check the exception", "anchors": ["castep_outputs/bin_parsers/epme_bin_parser.py::_check_header"]}
{"id": "C09", "title": "Line iteration reproduces the file", "statement": "Iterating a FileWrapper yields the lines of the text, each with its newline, whose concatenation is exactly the remaining text; after the k-th line lineno is k.", "quantifier": "every text, including empty text, no final newline, and consecutive newlines", "why_tests_cant": "quantifies over all texts", "anchors": ["castep_outputs/utilities/filewrapper.py::FileWrapper.__next__", "castep_outputs/utilities/filewrapper.py::FileWrapper.lineno"]}
{"id": "C10", "title": "FileWrapper.rewind steps back exactly one line in any history", "statement": "After any history of next and rewind calls, rewind undoes the last successful next (that line is returned again and lineno goes back by one), a second rewind in a row does nothing, and lineno always equals the number of lines consumed so far.", "quantifier": "every text and every finite history of next/rewind calls", "why_tests_cant": "histories are unbounded; the state kept is a single position and a counter that must stay in step", "anchors": ["castep_outputs/utilities/filewrapper.py::FileWrapper.rewind", "castep_outputs/utilities/filewrapper.py::FileWrapper.__next__"]}
{"id": "C11", "title": "Block extraction takes exactly the delimited lines", "statement": "Block.from_re(line, file, start, end, n_end=n): if start does not match, the block is empty and the file is not moved; otherwise the block is line followed by the file's next lines up to and including the n-th match of end, and the file continues with the line after; no line is lost, duplicated or altered. If the file ends first: OSError, or with eof_possible=True all the remaining lines.", "quantifier": "every file, line, pair of patterns, n_end and eof flag", "why_tests_cant": "patterns and contents are arbitrary; losing one boundary line silently corrupts the rest of the parse", "anchors": ["castep_outputs/utilities/filewrapper.py::Block.from_re"]}
{"id": "C12", "title": "Block.get_lines reads exactly n lines", "statement": "Block.get_lines(file, n) returns the next n lines and leaves the file positioned after them; it raises OSError exactly when fewer than n lines remain (unless eof_possible).", "quantifier": "every file and every n", "why_tests_cant": "the existing test does not look at the file afterwards nor at the exact-length file", "anchors": ["castep_outputs/utilities/filewrapper.py::Block.get_lines"]}
{"id": "C13", "title": "A Block behaves as a rewindable cursor over its lines", "statement": "Iterating a fresh Block yields its lines in order; after any history of next/rewind that stays inside the block the next line is the one at the running position; rewinding a block that is at its beginning raises ValueError and leaves it at the beginning.", "quantifier": "every block and every finite history of next/rewind calls", "why_tests_cant": "histories are unbounded, and the cursor is allowed to run past the end", "anchors": ["castep_outputs/utilities/filewrapper.py::Block.__next__", "castep_outputs/utilities/filewrapper.py::Block.rewind"]}
{"id": "C14", "title": "Block line numbers point at the right line of the file", "statement": "For a block cut from a file by Block.from_re at the line just read, the reported lineno after reading the k-th line of the block is the file line number of that line, also after remove_bounds and for a block cut out of a block.", "quantifier": "every file, block position, bounds and nesting depth", "why_tests_cant": "line numbers in messages are never tested; they depend on the position of every enclosing block", "anchors": ["castep_outputs/utilities/filewrapper.py::Block.lineno", "castep_outputs/utilities/filewrapper.py::Block.__init__", "castep_outputs/utilities/filewrapper.py::Block.remove_bounds"]}
{"id": "C15", "title": "Lazy trajectory access is independent of history", "statement": "For a well-formed .md/.geom file, MDGeomParser.get_frame(i) returns the parse of the i-th frame of the file whatever get_frame / read_next / iteration / send / slicing operations were performed before, including failed ones.", "quantifier": "every well-formed trajectory and every finite history of operations", "why_tests_cant": "the parser caches a file position and the next frame number; all interleavings matter", "anchors": ["castep_outputs/tools/md_geom_parser.py::MDGeomParser.get_frame", "castep_outputs/tools/md_geom_parser.py::MDGeomParser.read_next", "castep_outputs/tools/md_geom_parser.py::MDGeomParser.__iter__", "castep_outputs/tools/md_geom_parser.py::MDGeomParser._go_to_frame"]}
{"id": "C16", "title": "Lazy trajectory indexing follows list semantics", "statement": "len(parser) is the number of frames; parser[i] for -len <= i < len equals list(parser)[i] and raises IndexError otherwise; parser[a:b:c] equals list(parser)[a:b:c]; iteration yields all frames in order and stops.", "quantifier": "every well-formed trajectory, every index and every slice with any step", "why_tests_cant": "negative indices, steps and bounds combine in unboundedly many ways", "anchors": ["castep_outputs/tools/md_geom_parser.py::MDGeomParser.__getitem__", "castep_outputs/tools/md_geom_parser.py::MDGeomParser.__len__", "castep_outputs/tools/md_geom_parser.py::MDGeomParser.__iter__"]}
{"id": "C17", "title": "Lazy and eager trajectory readers agree", "statement": "list(MDGeomParser(f)) equals parse_md_geom_file(f) for every file CASTEP writes.", "quantifier": "every trajectory: any number of frames, any frame contents, separator lines blank or whitespace-only", "why_tests_cant": "the two readers use different notions of a separator line; each is tested on its own file only", "anchors": ["castep_outputs/tools/md_geom_parser.py::MDGeomParser", "castep_outputs/parsers/md_geom_file_parser.py::parse_md_geom_file"]}
{"id": "C18", "title": "No trajectory frame is silently dropped or merged", "statement": "parse_md_geom_file returns one entry per frame of the file.", "quantifier": "every file whose frames are separated by one or more blank lines", "why_tests_cant": "the loop ends at the first falsy block; what makes a block falsy depends on contents", "anchors": ["castep_outputs/parsers/md_geom_file_parser.py::parse_md_geom_file"]}
{"id": "C19", "title": "A trajectory frame is recovered field by field", "statement": "parse_md_geom_frame on a frame of time line, tagged global lines and tagged per-atom lines returns the time, for each global tag the list of its rows of numbers in order, and for each (species, index) and tag its three components, with nothing missing, invented or misplaced, and every alias equal to its short tag.", "quantifier": "every frame: any species, atom count, numbers of the printed form, and tag order", "why_tests_cant": "contents are arbitrary numbers; misassignment of one column or atom is invisible to a sampled test", "anchors": ["castep_outputs/parsers/md_geom_file_parser.py::parse_md_geom_frame", "castep_outputs/utilities/castep_res.py::TAG_RE", "castep_outputs/utilities/castep_res.py::ATOMIC_DATA_TAG", "castep_outputs/utilities/utility.py::add_aliases"]}
{"id": "C20", "title": "Comment stripping removes comments and nothing else", "statement": "strip_comments keeps exactly the lines that are neither blank nor comment-initial, in order, changed only by removal of trailing whitespace; with remove_inline it keeps of each line exactly the text before the first comment marker, right-stripped, dropping lines left empty; stripping twice equals stripping once.", "quantifier": "every text and every set of comment strings without regex metacharacters", "why_tests_cant": "needs all positions and combinations of markers and whitespace", "anchors": ["castep_outputs/utilities/utility.py::strip_comments", "castep_outputs/utilities/utility.py::_strip_initial_comments", "castep_outputs/utilities/utility.py::_strip_inline_comments"]}
{"id": "C21", "title": "Normalised keys are canonical", "statement": "normalise_key returns lower-case words of letters/digits joined by single underscores with none at either end; it is idempotent, insensitive to case, and two strings with the same sequence of alphanumeric words up to case get the same key (and only those).", "quantifier": "every (ASCII) string", "why_tests_cant": "keys of result dictionaries come from arbitrary header text", "anchors": ["castep_outputs/utilities/utility.py::normalise_key"]}
{"id": "C22", "title": "Normalised strings are canonical", "statement": "normalise_string returns the whitespace-separated words of its input joined by single spaces; it is idempotent and its output has no leading, trailing or doubled whitespace.", "quantifier": "every string", "why_tests_cant": "all strings and all Unicode whitespace", "anchors": ["castep_outputs/utilities/utility.py::normalise_string"]}
{"id": "C23", "title": "JSON normalisation leaves only JSON-representable data", "statement": "normalise(data, {dict: json_safe, complex: json_safe}) contains no complex number and no tuple-valued key at any depth (inside tuples, lists or dicts), and its scalars are those of the input.", "quantifier": "every nesting of dicts, lists, tuples and scalars with string or (nested) tuple keys", "why_tests_cant": "nesting depth and shape are unbounded", "anchors": ["castep_outputs/utilities/utility.py::normalise", "castep_outputs/utilities/utility.py::json_safe", "castep_outputs/cli/castep_outputs_main.py::parse_single"]}
{"id": "C24", "title": "JSON key flattening loses no entry", "statement": "json_safe maps distinct keys to distinct keys, so no entry of the dictionary is lost.", "quantifier": "every dictionary with string and tuple keys", "why_tests_cant": "collisions need particular pairs of keys", "anchors": ["castep_outputs/utilities/utility.py::json_safe"]}
{"id": "C25", "title": "Flattening a nested dictionary keeps every leaf under its path", "statement": "flatten_dict returns a one-level dictionary whose entries are exactly the scalar leaves of the input in order, each under the keys and list indices on its path joined by the separator.", "quantifier": "every nested structure whose joined paths are distinct, and every separator", "why_tests_cant": "depth, width and separators are unbounded; only the default separator is tested", "anchors": ["castep_outputs/utilities/utility.py::flatten_dict"]}
{"id": "C26", "title": "Accumulated columns stay rectangular", "statement": "Starting from empty columns, after any number of stack_dict calls with rows having the same keys, every column has exactly one entry per row, in row order.", "quantifier": "every sequence of rows", "why_tests_cant": "sequence length is unbounded", "anchors": ["castep_outputs/utilities/utility.py::stack_dict"]}
{"id": "C27", "title": "Aliases add names and change nothing else", "statement": "add_aliases makes every alias whose source key is present equal to the source value, keeps all other entries, and with replace removes exactly the source keys; with inplace=False the input is unchanged.", "quantifier": "every dictionary and every alias map whose targets are not themselves sources", "why_tests_cant": "interaction of several aliases within one call", "anchors": ["castep_outputs/utilities/utility.py::add_aliases"]}
{"id": "C28", "title": "Type conversion preserves structure", "statement": "to_type converts exactly the strings in its argument, element by element, keeping lengths, order and mapping keys (sequences become tuples) and leaving non-strings untouched; applying it again changes nothing; it raises exactly when some string does not parse.", "quantifier": "every nesting of sequences, mappings, strings and already-converted values, and every target type", "why_tests_cant": "nesting is unbounded", "anchors": ["castep_outputs/utilities/type_conv.py::to_type", "castep_outputs/utilities/type_conv.py::fix_data_types"]}
{"id": "C29", "title": "Every number found in a line is convertible", "statement": "Each string returned by get_numbers is accepted by to_type(..., float) (up to overflow of the double range), and its numeric value is the one written.", "quantifier": "every line of text whatsoever", "why_tests_cant": "arbitrary text including Fortran overflow stars, run-together numbers and malformed exponents", "anchors": ["castep_outputs/utilities/castep_res.py::get_numbers", "castep_outputs/utilities/castep_res.py::NUMBER_RE", "castep_outputs/utilities/type_conv.py::_parse_float_or_rational"]}
{"id": "C30", "title": "Numbers separated by blanks are all found, in order, unsplit", "statement": "For a line made of number tokens (optional sign, digits with optional decimal point, optional exponent of one to three digits) separated by whitespace, get_numbers returns exactly the list of tokens.", "quantifier": "every such line: any number of tokens of any length", "why_tests_cant": "ordered alternation with lookaround is easy to get wrong for particular digit/point patterns", "anchors": ["castep_outputs/utilities/castep_res.py::get_numbers", "castep_outputs/utilities/castep_res.py::FNUMBER_RE", "castep_outputs/utilities/castep_res.py::INTNUMBER_RE", "castep_outputs/utilities/castep_res.py::EXPNUMBER_RE"]}
{"id": "C31", "title": "The guessed type can always be converted to", "statement": "For every value string, to_type(value, determine_type(value)) does not raise.", "quantifier": "every string that can follow a keyword in a .cell/.param file", "why_tests_cant": "the guess matches a prefix only; tests use clean values", "anchors": ["castep_outputs/utilities/type_conv.py::determine_type", "castep_outputs/utilities/type_conv.py::to_type", "castep_outputs/parsers/cell_param_file_parser.py::parse_cell_param_file"]}
{"id": "C32", "title": "Integers are recognised as integers", "statement": "parse_int_or_float on integer texts returns ints, otherwise floats of the same value.", "quantifier": "every sequence of number texts, signed and unsigned", "why_tests_cant": "signs and mixed sequences", "anchors": ["castep_outputs/utilities/type_conv.py::parse_int_or_float"]}
{"id": "C33", "title": "Atoms in a cell file get distinct consecutive indices", "statement": "In a positions block the entries are keyed (species, 1), (species, 2), ... per species in order of appearance; every well-formed position line gives exactly one entry holding its own three coordinates and no two lines share a key.", "quantifier": "every positions block: any species sequence, any coordinates (including rationals)", "why_tests_cant": "counter bookkeeping over unbounded sequences of species", "anchors": ["castep_outputs/parsers/cell_param_file_parser.py::_parse_positions"]}
{"id": "C34", "title": "Symmetry operations are grouped by four rows", "statement": "A symmetry_ops block of 4n rows gives n operations in order, each with its three rotation rows and its translation row.", "quantifier": "every number of operations and every matrix content", "why_tests_cant": "slicing arithmetic over unbounded input", "anchors": ["castep_outputs/parsers/cell_param_file_parser.py::_parse_symops"]}
{"id": "C35", "title": "Later settings override earlier ones, case-insensitively, comments ignored", "statement": "In a .cell/.param file the value of a keyword is that of its last occurrence, keywords are matched irrespective of case, and inserting comment or blank lines or trailing comments anywhere outside blocks changes nothing.", "quantifier": "every file all of whose blocks are closed, every insertion point (also inside blocks), no line opening a block without naming it", "why_tests_cant": "unbounded insertions and files", "anchors": ["castep_outputs/parsers/cell_param_file_parser.py::parse_cell_param_file", "castep_outputs/utilities/utility.py::strip_comments"]}
{"id": "C36", "title": "An unterminated block in a cell/param file is an error", "statement": "If a %block is not closed by a matching %endblock before the end of the file, parse_cell_param_file raises OSError; it never silently swallows the rest.", "quantifier": "every file with an unterminated block", "why_tests_cant": "position of the missing terminator is arbitrary", "anchors": ["castep_outputs/parsers/cell_param_file_parser.py::parse_cell_param_file", "castep_outputs/utilities/filewrapper.py::Block.from_re"]}
{"id": "C37", "title": "Band structures keep every k-point and eigenvalue", "statement": "parse_bands_file returns one entry per K-point in the file, in order, and each eigenvalue under its own k-point and spin component.", "quantifier": "every number of k-points, bands and spin components", "why_tests_cant": "a state machine over unbounded input", "anchors": ["castep_outputs/parsers/bands_file_parser.py::parse_bands_file"]}
{"id": "C38", "title": "Formatted grids keep columns aligned", "statement": "The grid parsers for .den_fmt/.elf_fmt/.pot_fmt-like files return one q-vector and one value per column for each row, in row order; rows of the wrong width raise ValueError.", "quantifier": "every number of rows and columns", "why_tests_cant": "unbounded tables", "anchors": ["castep_outputs/parsers/parse_fmt_files.py::_parse_kpt_info"]}
{"id": "C39", "title": "Verbosity levels are nested", "statement": "The filter levels are ordered by inclusion NONE < LOW < MEDIUM < HIGH <= FULL, every named filter belongs to FULL, and raising the level never removes a section from the result.", "quantifier": "all filter levels and every file", "why_tests_cant": "all pairs of levels on all files", "anchors": ["castep_outputs/parsers/castep_file_parser.py::Filters", "castep_outputs/parsers/castep_file_parser.py::parse_castep_file"]}
{"id": "C40", "title": "Filters select sections without changing how the file is cut", "statement": "For every file, the sections returned with a filter set are those returned with a larger set restricted to the smaller one: skipping a section never changes the interpretation of later text, and with Filters.NONE nothing is returned.", "quantifier": "every file and every pair of nested filter sets", "why_tests_cant": "skipped sections that do not consume their lines leak them into other sections for particular contents only", "anchors": ["castep_outputs/parsers/castep_file_parser.py::parse_castep_file"]}
{"id": "C41", "title": "Each run in an appended .castep file is returned separately", "statement": "parse_castep_file returns one result per run (build banner), in file order, each containing only data from its own part of the file.", "quantifier": "every concatenation of runs", "why_tests_cant": "state carried across runs shows only for particular sequences", "anchors": ["castep_outputs/parsers/castep_file_parser.py::parse_castep_file"]}
{"id": "C42", "title": "K-point coordinates are reported as printed", "statement": "The k-point list gives for each k-point its three printed coordinates in order and its weight.", "quantifier": "every k-point table", "why_tests_cant": "needs points with distinct first and third coordinates", "anchors": ["castep_outputs/parsers/castep_file_parser.py::_process_kpoint_blocks"]}
{"id": "C43", "title": "Bond populations keep what is printed", "statement": "For each bond the population, length and, when the spin column is printed, the spin are returned.", "quantifier": "every bond table including zero spins", "why_tests_cant": "a zero value is falsy in Python", "anchors": ["castep_outputs/parsers/castep_file_parser.py::_process_bond_analysis"]}
{"id": "C44", "title": "Repeated q-points are reported once", "statement": "The phonon section does not list the same q-point twice when CASTEP prints it twice in a row.", "quantifier": "every phonon section", "why_tests_cant": "types compared differ (strings against floats)", "anchors": ["castep_outputs/parsers/castep_file_parser.py::_process_phonon"]}
{"id": "C45", "title": "Stress and elastic tensors are assembled from the right entries", "statement": "The six independent stress components are taken from the upper triangle of the printed 3x3 matrix in the documented order, and 6x6 / 3x6 matrices keep rows and columns in place.", "quantifier": "every matrix", "why_tests_cant": "arbitrary entries; permutations of equal test values go unnoticed", "anchors": ["castep_outputs/parsers/castep_file_parser.py::_process_stresses", "castep_outputs/parsers/castep_file_parser.py::_process_3_6_matrix", "castep_outputs/parsers/castep_file_parser.py::_process_dynamical_matrix"]}
{"id": "C46", "title": "Raman invariants are the documented tensor invariants", "statement": "trace and II are computed for each Raman tensor A by formulas which in exact arithmetic give tr A and (tr(A)^2 - tr(A^2))/2, every floating-point operation in them being correctly rounded.", "quantifier": "every 3x3 tensor", "why_tests_cant": "an algebraic identity over all tensors", "anchors": ["castep_outputs/parsers/castep_file_parser.py::_process_raman"]}
{"id": "C47", "title": "The predicted file list is well formed", "statement": "get_generated_files returns a sorted list without duplicates which always contains <seedname>.castep, every other entry being derived from the seedname, a species of the cell or a fixed CASTEP name, or being the file for Born charges named by the user.", "quantifier": "every combination of parameters and cell data", "why_tests_cant": "a decision procedure over thousands of combinations of parameters", "anchors": ["castep_outputs/tools/get_generated_files.py::get_generated_files", "castep_outputs/tools/get_generated_files.py::_get_generated_files"]}
{"id": "C48", "title": "write_none suppresses all optional output", "statement": "With write_none set, no output controlled by the six write_* flags it overrides is predicted whatever their values.", "quantifier": "every combination of parameters", "why_tests_cant": "all flag combinations", "anchors": ["castep_outputs/tools/get_generated_files.py::_get_generated_files"]}
{"id": "C49", "title": "Every listed kind of output is predicted for some input", "statement": "Each file kind the predictor knows about can be produced by some input.", "quantifier": "every file kind, all inputs", "why_tests_cant": "an unreachable branch needs a proof over all inputs", "anchors": ["castep_outputs/tools/get_generated_files.py::_get_generated_files"]}
{"id": "C50", "title": "The parser used is determined by the explicit choice, else by the extension", "statement": "parse_single uses the parser named or given; without one it uses the parser for the file's extension; unknown formats or extensions raise ValueError.", "quantifier": "every file name and every parser argument", "why_tests_cant": "all names, including binary formats passed by name", "anchors": ["castep_outputs/cli/castep_outputs_main.py::parse_single"]}
{"id": "C51", "title": "Every requested file appears in the combined result", "statement": "parse_all returns (or dumps) one entry per requested file and parser, unwrapped when there is only one.", "quantifier": "every set of files", "why_tests_cant": "same path requested under two formats", "anchors": ["castep_outputs/cli/castep_outputs_main.py::parse_all"]}
{"id": "C52", "title": "Command-line selection honours the type flags", "statement": "For a seedname the files collected are exactly the existing files of the selected types; explicit files with a known extension are always collected under that extension.", "quantifier": "every combination of flags, seednames and existing files", "why_tests_cant": "2^n flag combinations times arbitrary file systems", "anchors": ["castep_outputs/cli/args.py::parse_args", "castep_outputs/cli/args.py::extract_parsables"]}
{"id": "C53", "title": "Dumper selection is total and documented", "statement": "get_dumpers returns the named dumper, resolves yaml to an available engine, raises ImportError if none is available and ValueError for an unknown name.", "quantifier": "every name and every set of installed engines", "why_tests_cant": "depends on installed engines", "anchors": ["castep_outputs/utilities/dumpers.py::get_dumpers"]}
{"id": "C54", "title": "Electron-phonon matrix-element binary files are read back completely", "statement": "Writing a header, atoms, k-points and phonon records in the epme_bin layout and parsing the file gives a dictionary holding exactly those values in order.", "quantifier": "every well-formed epme_bin file (any number of atoms, k-points, bands, modes)", "why_tests_cant": "the record sequence depends on four independent counts read from the file itself", "anchors": ["castep_outputs/bin_parsers/epme_bin_parser.py::parse_epme_bin_file"]}
{"id": "C55", "title": "Logical values are recognised in any letter case", "statement": "to_type(text, bool) is True exactly when the text is t or true in any letter case, or 1; determine_type classifies a text as bool exactly when it is t, true, f or false in any letter case.", "quantifier": "every text", "why_tests_cant": "unbounded texts; only a few literals are tried", "anchors": ["castep_outputs/utilities/type_conv.py::_parse_logical", "castep_outputs/utilities/type_conv.py::determine_type"]}
{"id": "C56", "title": "A setting line gives its keyword and its typed value", "statement": "A line of a cell or param file consisting of a keyword, a separator (blank, = or :) and a number, a row of numbers, a number with a unit, or a word gives one entry: the lower-case keyword mapped to that value.", "quantifier": "every keyword, separator and value of these shapes", "why_tests_cant": "unbounded texts; a handful of literals are tried", "anchors": ["castep_outputs/parsers/cell_param_file_parser.py::parse_cell_param_file"]}
{"id": "C57", "title": "The predicted file list does not depend on hash randomisation", "statement": "Two runs of get_generated_files on the same input give the same list, whatever order the interpreter iterates its sets in.", "quantifier": "every input and every pair of iteration orders of sets", "why_tests_cant": "a test sees one iteration order per run", "anchors": ["castep_outputs/tools/get_generated_files.py::_get_generated_files", "castep_outputs/tools/get_generated_files.py::get_xc_info"]}
{"id": "C58", "title": "YAML output holds plain lists", "statement": "For every YAML output format parse_single returns data without tuples at any depth, so that no Python-specific tag is written, and with the scalars unchanged.", "quantifier": "all parsed data, every YAML format", "why_tests_cant": "depth of nesting is unbounded", "anchors": ["castep_outputs/cli/castep_outputs_main.py::parse_single", "castep_outputs/utilities/utility.py::normalise"]}
{"id": "C59", "title": "The header of the smaller files is read exactly", "statement": "For a header made of 'Number of ...' lines, the cell vectors, fractional coordinates and other lines, the header parser returns exactly the counts under their names, the three cell vectors, one row per ion in order in the table of coordinates, and the numbers of the requested option lines; nothing else.", "quantifier": "every number and order of header lines and ions, every spacing", "why_tests_cant": "unbounded many shapes; regular expressions tried in order may shadow each other", "anchors": ["castep_outputs/parsers/parse_utilities.py::parse_regular_header"]}
{"id": "C60", "title": "An error file is split into message and trace", "statement": "parse_err_file returns the text before the first line naming the current trace stack as message and the lines after it as stack, all without surrounding whitespace.", "quantifier": "every error file", "why_tests_cant": "unbounded texts", "anchors": ["castep_outputs/parsers/err_file_parser.py::parse_err_file"]}
{"id": "C61", "title": "A Hugoniot file gives four aligned columns", "statement": "parse_hug_file returns the compression, temperature, pressure and energy of every row, in the order of the rows, and nothing else; lines without numbers are ignored.", "quantifier": "every number of rows, every spacing, every number", "why_tests_cant": "unbounded tables", "anchors": ["castep_outputs/parsers/hug_file_parser.py::parse_hug_file"]}
{"id": "C62", "title": "An .efield file gives its header and the rows of its tables", "statement": "parse_efield_file returns the header, each row of the oscillator strengths (frequency and six components) and each row of the permittivity (frequency and six components) under the name of the column.", "quantifier": "every number of blocks and rows, every spacing, every number", "why_tests_cant": "unbounded tables; a reference file only shows what the code does with it", "anchors": ["castep_outputs/parsers/efield_file_parser.py::parse_efield_file"]}
{"id": "C63", "title": "A .phonon_dos file gives its header, gradients and density of states", "statement": "parse_phonon_dos_file returns the header, for every q-point its position, weight and the number, frequency and gradient of each branch, and for every frequency the total density of states and that of each species.", "quantifier": "every number of q-points, branches, species and frequencies, every spacing, every number", "why_tests_cant": "unbounded tables; column names come from the file", "anchors": ["castep_outputs/parsers/phonon_dos_file_parser.py::parse_phonon_dos_file"]}
{"id": "C64", "title": "Forces, positions and velocities are reported for the right atom", "statement": "A block of forces gives the kind named by its title and, for every atom, the three components printed on its line under the species and the number of the atom, whatever remarks such as (cons'd) or (mixed) the components carry; a block of positions or velocities gives the vector of every atom in the same way.", "quantifier": "every number of atoms, every species with or without custom name and label, every spacing, every number, every remark", "why_tests_cant": "unbounded tables; the patterns have to find the right columns past optional remarks", "anchors": ["castep_outputs/parsers/castep_file_parser.py::_process_forces", "castep_outputs/parsers/castep_file_parser.py::_process_atreg_block"]}
{"id": "C65", "title": "The unit cell is reported from the right columns", "statement": "A block about the unit cell gives the three first numbers of each lattice line as a row of the real lattice and the three others as a row of the reciprocal lattice, the length and the angle of each line naming an angle, and volume and densities in the order printed.", "quantifier": "every number and order of lines, every text around the numbers, every number", "why_tests_cant": "unbounded texts; which column a number belongs to is decided by how many numbers are found", "anchors": ["castep_outputs/parsers/castep_file_parser.py::_process_unit_cell"]}
{"id": "C66", "title": "Every SCF cycle is reported with its own numbers, details and notes", "statement": "An SCF table gives one report per row, in order, with energy, Fermi energy, energy gain and time, None for what is not printed; notes printed after a row (density residual, constraint energy, dipole correction) belong to that row, details printed before a row (bands, kinetic eigenvalues, eigenvalues, contributions to the energy) to the row below.", "quantifier": "every number and order of rows, notes and details, every number, every text after the columns", "why_tests_cant": "unbounded tables; which column a number belongs to and which row a line belongs to is decided by position only", "anchors": ["castep_outputs/parsers/castep_file_parser.py::_process_scf", "castep_outputs/utilities/castep_res.py::SCF_LOOP_RE"]}
{"id": "C67", "title": "A .phonon file gives its header and every q-point", "statement": "parse_phonon_file returns the header (without the lines it does not know) and for every q-point its position, weight and direction, the frequency and the infrared and Raman activity of every branch, and the complex eigenvector of every mode and ion; a q-point with more or fewer frequencies than branches, and eigenvectors that are not one for each mode and ion, raise ValueError.", "quantifier": "every number of q-points, every number of ions and branches below one thousand, every spacing outside the fixed columns, every number", "why_tests_cant": "unbounded tables; the end of the eigenvectors is recognised by a text made from the header that may not occur in any other line", "anchors": ["castep_outputs/parsers/phonon_file_parser.py::parse_phonon_file"]}
{"id": "C68", "title": "A .magres file gives its sections as printed", "statement": "parse_magres_file returns the entries of [calculation] that have a value, the lattice, units and positions of [atoms], and each tensor of [magres] under its kind, its documented other name and the atom or the pair of atoms printed, also where the number of an atom stands next to the species; [magres] before [calculation], a blank line in either of the two and a number next to the species in [atoms] raise an exception.", "quantifier": "every number of entries, atoms and tensors, every version, every spacing, every number", "why_tests_cant": "unbounded files; where the species ends depends on the version and on the type of the third word", "anchors": ["castep_outputs/parsers/magres_file_parser.py::parse_magres_file"]}
{"id": "C69", "title": "The old section of a .magres file gives every tensor and the documented data of every atom", "statement": "For a file with [magres_old] parse_magres_file returns the total shielding tensor of every atom, and for every atom its position, the values printed as 'name: value', and its eigenvalues and eigenvectors under the documented names eigenvalue and eigenvector.", "quantifier": "every number of atoms and lines, every number", "why_tests_cant": "unbounded files; an example with one tensor does not show that others are lost", "anchors": ["castep_outputs/parsers/magres_file_parser.py::_process_magres_old_block"]}
{"id": "C70", "title": "An .epme file gives every matrix element with its k-points, and incomplete rows are not accepted", "statement": "parse_epme_file returns the version, cell volume, Fermi energy, numbers of bands and branches, and for every row the pair of k-points above it, the branch and band numbers, the energies, the velocities and the complex matrix element; a file with an incomplete row raises instead of giving a made-up matrix element.", "quantifier": "every number of pairs of k-points and rows, every number, every point at which a row can be cut", "why_tests_cant": "unbounded files; a file cut off in the middle of a row is not among the samples", "anchors": ["castep_outputs/parsers/epme_file_parser.py::parse_epme_file", "castep_outputs/parsers/epme_file_parser.py::_parse_epme_header"]}
{"id": "C71", "title": "A .tddft file gives its header, every overlap and every excitation", "statement": "parse_tddft_file returns the header with the highest occupied band of each spin channel, for every state the overlap with every pair of an occupied and an empty band and the total overlap, and for every excitation its energy, its characterisation, whether it converged and its complex dipole.", "quantifier": "every number of states, overlaps and excitations, every order of the sections and of other lines, every number", "why_tests_cant": "unbounded files; a header line that is never found goes unnoticed when the expected values were made by the program", "anchors": ["castep_outputs/parsers/tddft_file_parser.py::parse_tddft_file"]}
{"id": "C72", "title": "A .ts file gives every structure of a transition state search", "statement": "parse_ts_file returns whether the search is a confirmation and, for reagent, product and tests, every structure in order with its reaction coordinate, its rows of numbers and the vectors of its atoms under their tags and long names; the last structure may be cut by the end of the file, and the type of search printed in the first line does not matter.", "quantifier": "every number of structures, rows and atoms, every order of structures and other lines, every spacing, every type of search, every number", "why_tests_cant": "unbounded files; the only sample is a confirmation", "anchors": ["castep_outputs/parsers/ts_file_parser.py::parse_ts_file"]}
{"id": "C73", "title": "An .elastic file gives its header, every matrix with its unit, and the internal strain of every atom", "statement": "parse_elastic_file returns the header, every matrix under its normalised name with its unit and its rows in order, and for the internal strain of every atom, under its species and number, its rows of six components in order.", "quantifier": "every number of matrices, rows and atoms, every order of blocks and other lines, every name and unit, every spacing, every number", "why_tests_cant": "unbounded files; the expected values of the sample were made by the program", "anchors": ["castep_outputs/parsers/elastic_file_parser.py::parse_elastic_file"]}
{"id": "C74", "title": "An .xrd_sf file gives every structure factor as complex numbers, with their reciprocal lattice vectors", "statement": "parse_xrd_sf_file returns, for every structure factor named in the first line, under its name in lower case, the list of complex numbers whose real and imaginary parts are the numbers in the columns Re(name) and Im(name), wherever these stand; and under qvec the vectors, as integers, in the same order. In whatever order the set of names is iterated.", "quantifier": "every number of columns in every order, every name, every number of rows, every spacing, every number; a line without digits is rejected", "why_tests_cant": "unbounded tables; the order in which Python iterates a set of strings changes from run to run", "anchors": ["castep_outputs/parsers/xrd_sf_file_parser.py::parse_xrd_sf_file"]}
{"id": "C75", "title": "Mulliken populations give every atom its shells, charge and spin, for one spin or two", "statement": "_process_mulliken returns, for every atom of the table in order, the populations of s, p, d, f and the total, the charge, and the spin if there is one; where the spins are given separately it returns the populations of both spins under up_ and dn_, and as total the sum of the two totals.", "quantifier": "every number of atoms, every mixture of one-line and two-line entries, names with custom and label parts, every spacing, every number", "why_tests_cant": "unbounded tables, mixtures of the two formats", "anchors": ["castep_outputs/parsers/castep_file_parser.py::_process_mulliken"]}
{"id": "C76", "title": "Hirshfeld charges, initial spins and Born charges give every atom its own numbers", "statement": "For every atom of the table, in order, _process_hirshfeld returns the charge printed for it, _process_initial_spins its spin, its magnetic moment and whether it is fixed, and _process_born the three rows of its tensor, under its name with the label in brackets if there is one.", "quantifier": "every number of atoms, names with custom and label parts, every spacing, every number (also with an exponent), lines without digits anywhere", "why_tests_cant": "unbounded tables; spellings of numbers the fixtures do not use", "anchors": ["castep_outputs/parsers/castep_file_parser.py::_process_hirshfeld", "castep_outputs/parsers/castep_file_parser.py::_process_initial_spins", "castep_outputs/parsers/castep_file_parser.py::_process_born"]}
{"id": "C77", "title": "Orbital populations and displacement parameters are grouped under the right atom or temperature", "statement": "_process_orbital_populations returns for every atom a dictionary of exactly the orbitals printed for it, then the total and the projected totals; _process_atom_disp returns for every temperature, spelt as printed, a dictionary of exactly the atoms printed for it with their six numbers. Every group appears once, in the order of its first row, whatever the order of the rows.", "quantifier": "every number and order of rows, every set of atoms, orbitals and temperatures, every number and spacing", "why_tests_cant": "unbounded tables and all interleavings of groups", "anchors": ["castep_outputs/parsers/castep_file_parser.py::_process_orbital_populations", "castep_outputs/parsers/castep_file_parser.py::_process_atom_disp"]}
{"id": "C78", "title": "The thermodynamics table gives its columns and the zero-point energy", "statement": "_process_thermodynamics returns the zero-point energy if it is printed and, if there are rows, under t, e, f, s and cv the numbers of the column, one for each row in order.", "quantifier": "every number of rows, every number and spacing, other lines anywhere that do not begin with a number", "why_tests_cant": "unbounded tables", "anchors": ["castep_outputs/parsers/castep_file_parser.py::_process_thermodynamics"]}
{"id": "C79", "title": "Quantities printed one to a line are reported under their names", "statement": "_process_finalisation reports every line 'name = number' under the name (its words in lower case joined by underscores) with the number after the equals sign, _process_autosolvation likewise; a name printed twice keeps its place and takes the last value. A line at the end of a run that is not blank and has not exactly one equals sign raises ValueError.", "quantifier": "every number of lines, every name, every number and unit, repeated names; rejection wherever the line stands", "why_tests_cant": "all names and orders of lines, repetitions", "anchors": ["castep_outputs/parsers/castep_file_parser.py::_process_finalisation", "castep_outputs/parsers/castep_file_parser.py::_process_autosolvation"]}
{"id": "C80", "title": "Occupancies, line minimisations and dipoles are read line by line", "statement": "_process_occupancies returns a band for every line with three numbers, in order, and raises ValueError at a line with another count of numbers; _process_wvfn_line_min returns the initial energy and slope, the steps and the gains; _process_dipole returns the total charge of every kind, the centres of charge printed on the line after their title, the magnitude and the direction.", "quantifier": "every number and order of lines, every number, any other lines in between; repeated lines replace the value", "why_tests_cant": "unbounded tables, all orders of lines", "anchors": ["castep_outputs/parsers/castep_file_parser.py::_process_occupancies", "castep_outputs/parsers/castep_file_parser.py::_process_wvfn_line_min", "castep_outputs/parsers/castep_file_parser.py::_process_dipole"]}
{"id": "C81", "title": "A band structure table is reported k-point by k-point, with the bands printed below each", "statement": "The band structure section of a .castep output is reported as a list with one entry per k-point title, in order; each entry holds the spin, the three coordinates, the group, and exactly the band numbers and energies printed between that title and the next, in order. Lines without digits change nothing. A band printed before any k-point is a KeyError.", "quantifier": "all tables: any number of k-points, any number of bands for each (none included), any numerals, any lines without digits in between", "why_tests_cant": "the tests parse one printed table with a few k-points; that bands are never lost or moved to a neighbouring k-point, whatever the number of them, is a statement about all tables", "anchors": ["castep_outputs/parsers/castep_file_parser.py::_process_band_structure"]}
{"id": "C82", "title": "A whole .castep file: what is returned is what its sections say", "statement": "For a .castep file without a banner whose lines are energies (final, free, basis set corrected, 0K, SEDC, dispersion corrected), tables (initial cell, positions, velocities and spins, electronic minimisation, forces, stresses, Mulliken, orbital and Hirshfeld populations, bonds, Born charges, atomic displacements, thermodynamics, band structure, molecular dynamics data) and other text with none of the phrases the parser looks for, parse_castep_file returns one run holding exactly the wanted sections: every energy of each kind in the order of the file, every force and stress table under its kind, every electronic minimisation and Born table, and of the other tables the last one; keys are in the order of first appearance. With no wanted section the result is the empty list. A line with none of the phrases may be added or removed in front of any text without effect.", "quantifier": "all such files: any number and order of sections, any numbers, atoms, k-points, any other text in between, every set of filters", "why_tests_cant": "the tests parse sections one at a time or one sample file; that the 91 branches of the main loop do not take each other's lines, do not swallow text after a block, and combine repeated sections as promised is a statement about all files", "anchors": ["castep_outputs/parsers/castep_file_parser.py::parse_castep_file"]}
{"id": "C83", "title": "A .castep file of several runs: the runs are reported separately", "statement": "For a .castep file made of a possibly empty rest of a run and any number of runs, each opened by the banner 'Compiled for ...' and its lines up to a blank line, with sections and other text as in C82, parse_castep_file returns one dictionary per run in the order of the file, holding the build information (if system information is wanted) and exactly the wanted sections of that run; runs of which nothing is wanted are left out, and nothing of one run appears in another. The energies are tuples in the last run and lists in the others.", "quantifier": "all such files: any number of runs, any number and order of sections in each, any numbers, names and other text, every set of filters", "why_tests_cant": "the tests parse a file of one run at a time; that a run started by a banner begins empty, that the run before it is kept whole, and that the order is kept is a statement about all sequences of runs", "anchors": ["castep_outputs/parsers/castep_file_parser.py::parse_castep_file", "castep_outputs/parsers/castep_file_parser.py::_process_buildinfo"]}
{"id": "C84", "title": "Molecular dynamics in a .castep file: every step has its own report", "statement": "For a .castep file of one or several runs with, besides the sections of C82, steps of molecular dynamics (from 'Starting MD iteration' to 'finished MD iteration' or 'Finished MD', and from 'Starting MD' to the next ruler), parse_castep_file returns under 'md' one dictionary per step in the order of the file, holding everything the sections of that step say and nothing else, with the positions and the cell under 'positions' and 'cell'; what is said outside of the steps is the same as without them. Sections in a step are reported whenever the default filters want them, whatever filters were given for the file; without the MD filter nothing of the steps is reported. The table 'MD Data' gives every quantity whose name is made of letters, under that name. A step of which nothing is wanted raises ValueError.", "quantifier": "all such files: any number of steps and runs, any number and order of sections in steps and outside, any numbers and names, any other text, every set of filters", "why_tests_cant": "the test parses a text with one step; that steps do not leak into the run or into each other, that the recursive call sees exactly the lines of the step, and that order and number of steps are kept is a statement about all files", "anchors": ["castep_outputs/parsers/castep_file_parser.py::parse_castep_file", "castep_outputs/parsers/castep_file_parser.py::_process_md_block"]}
{"id": "C85", "title": "Geometry tables of a .castep file: every row under its own key with its own numbers", "statement": "For every table of a geometry optimisation, be it the line search (Step, lambda, F.delta', enthalpy) or the criteria of convergence (Parameter, value, tolerance, units, OK?), the report has for each row exactly the numbers printed between its bars, under the name of the step (words separated by single spaces) or of the parameter, and for a criterion whether it is met: true exactly for Yes. Titles and rulers leave nothing behind; if a key comes twice, the last row is kept. A parameter with bars in its own name (|F|max, |dR|max) does not shift the columns.", "quantifier": "all tables: any number of rows of both kinds, any numbers with or without exponents, any widths of the cells, any names, units and lines without digits between them", "why_tests_cant": "the tests have one table of each kind; that bars within a name never shift the columns, and that no row is lost or mixed with another, is a statement about all tables and about two regular expressions that are tried on every line", "anchors": ["castep_outputs/parsers/castep_file_parser.py::_process_geom_table", "castep_outputs/utilities/castep_res.py::GEOMOPT_MIN_TABLE_RE", "castep_outputs/utilities/castep_res.py::GEOMOPT_TABLE_RE"]}
{"id": "C86", "title": "Memory estimates of a .castep file: every row of the estimate is reported", "statement": "For every estimate of memory and disk, the report has for each row, under its name, exactly the two numbers printed in it; titles, rulers and remarks leave nothing behind.", "quantifier": "all estimates: any number of rows, any names, numbers and remarks", "why_tests_cant": "the test has one estimate, and its expected value leaves out two of the rows that are in its text; which rows are lost is a statement about all names", "anchors": ["castep_outputs/parsers/castep_file_parser.py::_process_memory_est"]}
{"id": "C87", "title": "Geometry optimisation in a .castep file: the iterations of a run", "statement": "For every run with iterations of a geometry optimisation, the report has under geom_opt / iterations, in the order of the file, one entry for each iteration, with exactly what its sections say (under the filters used when none are given) and nothing from outside of it; before them one entry with the enthalpies, electronic minimisations, forces, stresses and tables said before the first iteration, which are no longer in the run, and with the initial cell and positions, which stay in the run, too. Without GEOM_OPT nothing is said of iterations and nothing is taken out. An iteration of which nothing is wanted ends the parsing with ValueError.", "quantifier": "all runs: any number of iterations, any sections in, before and after them, any text between sections, any filters", "why_tests_cant": "the test has one iteration after the start; that nothing moves between iterations and the run for any number of them and any sections is a statement about all files", "anchors": ["castep_outputs/parsers/castep_file_parser.py::parse_castep_file"]}
{"id": "C88", "title": "Parameters of a .castep file: every option under its name in its group", "statement": "For every list of parameters, the report has, under the name of each group (its title in lower case, without the word Parameters), exactly the options printed after that title and before the next: the text before the colon as the name, with single spaces, and as the value the number, the number with the words of its unit, or the text. Lines 'output ... unit : ...' are gathered under output_units, whatever group they are printed in. Of two options of the same name in a group, and of two groups of the same name, the last one counts.", "quantifier": "all lists: any number of groups, options, units and other lines, any names, values and widths of the columns", "why_tests_cant": "the test has three groups with a few options; which lines are titles, units or options, and what becomes of values such as names of files, is a statement about all texts", "anchors": ["castep_outputs/parsers/castep_file_parser.py::_process_params"]}
{"id": "C89", "title": "Delta SCF: every state with its own band, spin, population and file", "statement": "For every report on the states of a delta SCF calculation, the result has one entry for each state, in the order in which they are introduced, with its band and its spin, and with the population and the file that later lines state for that band and spin (the last one, if several lines do), and nothing that is said about another state; and the model the bands are taken from, if one is named.", "quantifier": "all reports: any number of states, populations, files and other lines in any order, any names of files", "why_tests_cant": "the test has one report of two states; to which state a line belongs, and that no name of a file disturbs it, is a statement about all sequences of lines and all names", "anchors": ["castep_outputs/parsers/castep_file_parser.py::_process_delta_scf"]}
{"id": "C90", "title": "Internal constraints: every constraint with its values and all its ends", "statement": "For every table of internal constraints, the result has one entry for each row, in their order: the type, the current value, the target if the constraint is not satisfied, whether it is satisfied, and the ends, each an atom with the periodic image it is in, all of them, also when the numbers of an image are printed with no space between them.", "quantifier": "all tables: any number of rows and ends, any numbers, any blank lines between the rows", "why_tests_cant": "the test has one table with bonds between different atoms; tables with a bond between an atom and its own image in the next cell do not occur in it", "anchors": ["castep_outputs/parsers/castep_file_parser.py::_process_internal_constraints"]}
{"id": "C91", "title": "Delocalised internal coordinates: mapping of constraints, numbers of primitives, active space", "statement": "For every table of delocalised internals, the result maps each constraint to its primitive and has the number of primitives of every kind under num_ and the kind; every other line is ignored. For every report on the active space, the result has the size of the space, the number of degrees of freedom and the number of primitive internals, the last one stated for each.", "quantifier": "all tables and reports: any number of lines in any order, any kinds and numbers", "why_tests_cant": "the test has one table; that no line is lost or attributed to the wrong key is a statement about all sequences of lines", "anchors": ["castep_outputs/parsers/castep_file_parser.py::_process_deloc_table", "castep_outputs/parsers/castep_file_parser.py::_process_deloc_act_space_table"]}
{"id": "C92", "title": "Dispersion correction: parameters and the coefficients of every species", "statement": "For every report on the dispersion correction, the result has each named line under its name (a parameter as its number, anything else as its text), and under species the coefficients C6 and R0 of every row of the table under the name of the species, also if the species has a tag such as H:D; headings and borders are ignored.", "quantifier": "all reports: any number of lines in any order, any names, values and species", "why_tests_cant": "the test has two species without tags; what happens to names with a colon is a statement about all rows", "anchors": ["castep_outputs/parsers/castep_file_parser.py::_process_dftd"]}
{"id": "C93", "title": "Elastic properties: every modulus under its name, speeds of sound as a matrix", "statement": "For every table of elastic properties, the result has each line 'name :: numbers' under its name, as the tuple of its numbers or as the number if there is only one, and under speed_of_sound the rows of numbers from the title of that table to the next blank line; other lines are ignored.", "quantifier": "all tables: any number of lines and rows, any names and numbers, any headings", "why_tests_cant": "the test has one table; that no row is lost or attributed to the wrong name is a statement about all sequences of lines", "anchors": ["castep_outputs/parsers/castep_file_parser.py::_process_elastic_properties"]}
{"id": "C94", "title": "Excitation energies, samples of the electron localisation function, symmetry analyses", "statement": "For every table of excitation energies, the result is the list of the energies, errors and types, in the order of the rows; for every list of samples of the electron localisation function, the result is the list of the values in their order; for every symmetry analysis of phonons, the result has the words of the title and the rows of the matrix, a row of unsigned whole numbers as whole numbers and any other row as floating-point numbers.", "quantifier": "all tables: any number of rows, any numbers and types, any lines between the rows without a number behind the border", "why_tests_cant": "the tests have one table each; that no row is lost or changed is a statement about all sequences of lines and all numbers", "anchors": ["castep_outputs/parsers/castep_file_parser.py::_process_tddft", "castep_outputs/parsers/castep_file_parser.py::_process_elf", "castep_outputs/parsers/castep_file_parser.py::_process_phonon_sym_analysis"]}
{"id": "C95", "title": "Symmetry and constraints: groups, counts, operations and constraints", "statement": "For every report on symmetry and constraints, the result has under symmetries the maximum deviation, each number of things, the point group and the space group with their number and their names, the number of primitive cells and the list of all operations in their order, each with the rows of its matrix, its displacement and every related atom; and under constraints the numbers of constraints, whether the centre of mass is constrained and the cell constraints. Species with tags such as H:D are possible.", "quantifier": "all reports: any number of lines in any order, any numbers, names of groups, operations, species and atoms", "why_tests_cant": "the tests have three reports with one or two operations and species without tags; that no operation or atom is lost and to which of the two dictionaries something belongs is a statement about all reports", "anchors": ["castep_outputs/parsers/castep_file_parser.py::_process_symmetry"]}
{"id": "C96", "title": "Properties of species: each table sets its property of its species and nothing else", "statement": "For every table of masses, of electric quadrupole moments and of pseudopotentials, and whatever the run already holds about species, after the table each species in it has the value of its line under the name of the property (the last one if it appears twice), every other property of every species is as before, and no other species appears. Species with tags or labels and files in any directory are possible.", "quantifier": "all tables: any number of species, any names, numbers and files, other lines anywhere; all earlier contents of the run", "why_tests_cant": "the tests have one table of each kind in a fresh run; that the three tables and the pseudo atomic energies never destroy each other's entries is a statement about all runs and orders", "anchors": ["castep_outputs/parsers/castep_file_parser.py::_process_spec_prop", "castep_outputs/parsers/castep_file_parser.py::parse_castep_file"]}
{"id": "C97", "title": "Projectors of pseudopotential definitions: every projector with its type, radius, energy and shift", "statement": "For every shell of a pseudopotential definition made on the fly, such as 30U2.1U=-1.1@0.25, the result has the principal quantum number, the angular momentum as a number and as a letter, and the list of all projectors in their order, each with its type and with the radius, the energy and the shift that are written (the nearest floating-point numbers, with their signs), and without those that are not.", "quantifier": "all shells: any quantum numbers, any number of projectors of any types, any numbers given or left out, any signs of energies", "why_tests_cant": "the tests have a few shells and no negative energy; that every combination of optional parts is told apart is a statement about all texts", "anchors": ["castep_outputs/parsers/cell_param_file_parser.py::_parse_beta_function"]}
{"id": "C98", "title": "Pseudopotential definitions: every part of the string is reported", "statement": "For every pseudopotential definition made on the fly, such as 2-|1.9|3.5|5|7.5|30U2.1U=+1.1:31N{3d2,4s0.5}[](tm,qc=7), with or without a local energy, the two optional radii, a mark for a polynomial fit before or after the local channel, adjusted occupations, a test and flags in any order, the result has all numbers (the nearest floating-point numbers), all shells with their projectors, the items of each addition in their order, whether a fit and a report are asked for, the definition itself, and no key for what is left out.", "quantifier": "all definitions: any numbers, shells and projectors, any additions in any order, any flags", "why_tests_cant": "the tests have a dozen definitions; that no optional part is ever taken for another is a statement about all definitions", "anchors": ["castep_outputs/parsers/cell_param_file_parser.py::_parse_pspot_string", "castep_outputs/utilities/castep_res.py::PSPOT_INFO_RE"]}
{"id": "C99", "title": "Linear constraints of .cell files: the coefficients for each atom", "statement": "For every ionic_constraints block of a .cell file, with comments and blank lines anywhere, the value has for each atom (species and number) the list of the coefficient vectors on its lines, in the order of the lines, each number the nearest floating-point number.", "quantifier": "all blocks: any number of lines, any numbers of constraints, atoms and coefficients", "why_tests_cant": "the test has four constraints; a block of a real calculation has dozens, and nothing is raised when a line is passed over", "anchors": ["castep_outputs/parsers/cell_param_file_parser.py::_parse_ionic_constraints", "castep_outputs/utilities/castep_res.py::IONIC_CONSTRAINTS_RE"]}
{"id": "C100", "title": "Numeric blocks of .cell files: the rows and the units", "statement": "For every block of numbers of a .cell file that has no parser of its own (lattice_cart, lattice_abc, kpoints_list, external_pressure, cell_constraints, ...), whatever its name, with comments and blank lines anywhere, with or without a first line naming the units, the value has the rows in order, each number the nearest floating-point number to the one written (or to the ratio written), and the units if given; nothing else.", "quantifier": "all names of blocks without their own parser, all numbers of rows and columns, all numbers and ratios, all units", "why_tests_cant": "the tests have a handful of blocks; which words pass as units and which as data is decided by two expressions tried in turn on every line", "anchors": ["castep_outputs/parsers/cell_param_file_parser.py::_parse_general", "castep_outputs/utilities/castep_res.py::FLOAT_RAT_RE", "castep_outputs/utilities/castep_res.py::SPEC_PROP_RE"]}
{"id": "C101", "title": "Blocks of species properties in .cell files: one value for each species", "statement": "For every block of a .cell file with properties of species (species_mass, species_lcao_states, ...), with comments and blank lines anywhere, with or without a first line naming the units, the value has for each species the value on its last line: a whole number, the nearest floating-point number, a logical or the text; and the units if given.", "quantifier": "all names of blocks without their own parser, all species (with custom names), all values", "why_tests_cant": "the tests have two such blocks; that a species line is never taken for units or numbers is a statement about all species and values", "anchors": ["castep_outputs/parsers/cell_param_file_parser.py::_parse_general", "castep_outputs/utilities/castep_res.py::SPEC_PROP_RE"]}
{"id": "C102", "title": "Definitions of functionals in .param files: weights and parameters", "statement": "For every xc_definition block, with comments and blank lines anywhere, the value has under xc the weight of each functional and under params the screening length, the screening function and the two switches; numbers are the nearest floating-point numbers, a switch is on exactly if ON is written in letters of any case, and of several lines with one name the last counts.", "quantifier": "all blocks: any functionals, weights, parameters, in any order and case", "why_tests_cant": "the test has one block; that no parameter ends up among the weights and no functional among the parameters is a statement about all names", "anchors": ["castep_outputs/parsers/cell_param_file_parser.py::_parse_xc_definition", "castep_outputs/utilities/utility.py::strip_comments"]}
{"id": "C103", "title": "Pseudopotentials of .cell files: names as written, definitions taken apart", "statement": "For every species_pot block of a .cell file, with comments and blank lines anywhere, the value has for each species the name of the file or library on its line, or the parts of the definition that stands there (C98); a line of one word is reported without a species; of several lines for a species the last counts.", "quantifier": "all blocks: any species, names and definitions", "why_tests_cant": "the tests have a few definitions; that every definition is recognised as one, and no file name is, is a statement about a regular expression on all texts", "anchors": ["castep_outputs/parsers/cell_param_file_parser.py::_parse_species_pot", "castep_outputs/utilities/castep_res.py::PSPOT_FULL_LAZY"]}
{"id": "C104", "title": "Constraints on distances and angles in .cell files: the atoms and the cells they are in", "statement": "For every nonlinear_constraints block of a .cell file, with comments and blank lines anywhere, the value has one entry for each line, in order: the kind of the constraint as written and, for each of its atoms (species and number), the three whole numbers giving the cell the atom is in.", "quantifier": "all blocks: any number of lines, any kinds, any number of atoms on a line, all species, numbers and cells", "why_tests_cant": "the test has four lines, all between different atoms; a constraint between an atom and a periodic image of the same or of another atom is what the cell numbers are for", "anchors": ["castep_outputs/parsers/cell_param_file_parser.py::_parse_nonlinear_constraints", "castep_outputs/utilities/castep_res.py::ATOMIC_DATA_3VEC"]}
{"id": "C105", "title": "Parameters of dispersion corrections in .cell files: units and values of each species", "statement": "For every sedc_custom_params block of a .cell file, with comments and blank lines anywhere, with or without a first line naming the units of energy and distance, the value has the units (eV and Ang by default) and for each species the values under their names, whole numbers as integers and other numbers as the nearest floating-point numbers.", "quantifier": "all blocks: any species with tags, any names and numbers of values, blanks around the colons or not, all units", "why_tests_cant": "the test has one block; whether the first line is read as units or as a species is decided by counting its words", "anchors": ["castep_outputs/parsers/cell_param_file_parser.py::_parse_sedc", "castep_outputs/utilities/castep_res.py::COLON_SEP_RE"]}
{"id": "C106", "title": "Hubbard U values in .cell files: the shells of each species or atom", "statement": "For every hubbard_u block of a .cell file, with comments and blank lines anywhere, with or without a first line naming the units, the value has the units (eV by default) and for each species, or atom of a species, the values for its shells, whole numbers as integers and other numbers as the nearest floating-point numbers.", "quantifier": "all blocks: any species and atoms, shells and numbers, blanks around the colons or not, all units", "why_tests_cant": "the test has three lines; the name of the species is removed from the line wherever it occurs, so that no value is lost with it is a statement about all lines", "anchors": ["castep_outputs/parsers/cell_param_file_parser.py::_parse_hubbard_u", "castep_outputs/parsers/cell_param_file_parser.py::_get_block_units", "castep_outputs/utilities/castep_res.py::COLON_SEP_RE"]}
{"id": "C107", "title": "Pseudoatoms of .castep files: the energy and the spilled charge of each species", "statement": "For every report on a pseudoatom, the value has the species of the title, the energy on the line after the empty one (not the number of iterations before it), and for each line on charge spilling, in order, its percentage multiplied by the double nearest 0.01; without such lines there is no charge spilling entry.", "quantifier": "all reports: any species, shells and numbers, any other lines anywhere after the energy", "why_tests_cant": "the tests have three species with single-component spilling; that the number taken is always the last one of the line is a statement about all lines", "anchors": ["castep_outputs/parsers/castep_file_parser.py::_process_ps_energy", "castep_outputs/utilities/castep_res.py::PS_SHELL_RE"]}
{"id": "C108", "title": "Reports on pseudopotentials in .castep files: orbitals, projectors and the definition", "statement": "For every report on a pseudopotential, the value has each orbital of the reference calculation with its occupation and energy, and each projector with its number (or loc), angular momentum, spin-orbit index if there is one, energy, radius, scheme and norm, in order; further the element, ionic charge and level of theory, the solver, the radii of the augmentation charge and the core correction, and the parts of the definition in quotes.", "quantifier": "all reports: any rows in any order, with and without spin-orbit coupling, all numbers", "why_tests_cant": "the test has two reports; that a row of projectors is never taken for an orbital, and a row with or without the optional column is always split correctly, are statements about regular expressions with optional parts on all rows", "anchors": ["castep_outputs/parsers/castep_file_parser.py::_process_pspot_report", "castep_outputs/utilities/castep_res.py::PSPOT_REFERENCE_STRUC_RE", "castep_outputs/utilities/castep_res.py::PSPOT_DEF_RE", "castep_outputs/utilities/castep_res.py::PSPOT_FULL_LAZY"]}
{"id": "C109", "title": "Final configuration of a geometry optimisation in .castep files: cell, atoms and quantities", "statement": "For every report on the final configuration of a geometry optimisation, the value has the cell (lattice, reciprocal lattice, lengths, angles, volume, densities) of its unit cell part, the position of every atom of the table of cell contents under its species and number, and each quantity on a line with the name of a minimiser, a colon, a name and an equals sign, under its name as the nearest floating-point number; every other line without a colon or without an equals sign adds nothing.", "quantifier": "all reports: any parts in any order and number, all minimisers in capitals, all names, and all real numbers with a decimal point or an exponent; the last of repeated parts is reported", "why_tests_cant": "the test has one report; that the blocks end exactly at their third blank line and second ruler, so that no quantity after them is lost, is a statement about all reports", "anchors": ["castep_outputs/parsers/castep_file_parser.py::_process_final_config_block", "castep_outputs/parsers/castep_file_parser.py::_process_unit_cell", "castep_outputs/parsers/castep_file_parser.py::_process_atreg_block"]}
{"id": "C110", "title": "Berry phase polarisation in .castep files: every vector, table, quantum and ionic contribution is reported", "statement": "For every Berry phase report, the value has: each polarisation vector (ionic, electronic, total) with its unit and its three components; the rows of every table of polarisations, those of tables of phases under `phase` and those of other tables under `val` with the unit; for every row of the table of quanta, the electronic, ionic and total polarisation, the quantum and the unit under its direction; the table of polarisations per volume; and the position and polarisation of every ion under its species and number, with the total. All numbers are the nearest floating-point numbers. Lines without an opening bracket add nothing.", "quantifier": "all reports: vectors and tables in any order and number, all units, all rows and all numbers; the last of repeated vectors, rows and directions is reported", "why_tests_cant": "the tests have two reports; that values and phases of several tables are kept side by side in one entry, and that no table takes lines of the next, is a statement about all reports", "anchors": ["castep_outputs/parsers/castep_file_parser.py::_process_berry_phase", "castep_outputs/utilities/castep_res.py::POL_HEADER_RE", "castep_outputs/utilities/castep_res.py::POL_TABLE_RE"]}
{"id": "C111", "title": "NMR tables of .castep files: every value of every atom is reported", "statement": "For each of the five tables of NMR properties (chemical shielding, shielding with electric field gradient, field gradient, J-coupling, hyperfine), the value has the name of the table under `task` and, for every row between bars, the columns under their names as the nearest floating-point numbers, under the species and number of the atom; an asymmetry that is not available (`N/A`) is reported as None. Titles, rulers, blank lines and the rows of perturbing nuclei without values add nothing.", "quantifier": "all five tables, all rows in any number and order, among any lines with at most one number; all atom names with tags and labels; all numbers, the asymmetry with a decimal point and no exponent", "why_tests_cant": "each table has one test with at most three rows; that no row is lost or has its columns confused for any numbers and names is a statement about all tables", "anchors": ["castep_outputs/parsers/castep_file_parser.py::_parse_magres_block", "castep_outputs/utilities/castep_res.py::MAGRES_RE", "castep_outputs/utilities/castep_res.py::MAGRES_TASK"]}
{"id": "C112", "title": "Parameters of pair potentials: every value is reported under its potential and name", "statement": "For every row of parameters of a pair potential outside the blocks of two-body and three-body terms, the dictionary of parameters has the value as the nearest floating-point number, under the name of the potential (with the tag of the block and an underscore before it, if there is one) and the name of the parameter; of repeated parameters the last counts; all other lines add nothing.", "quantifier": "all rows in any number and order, with and without tags and units, among any lines without an arrow; all numbers", "why_tests_cant": "the test of the project has values that end with the digit zero, so it cannot see that the last digit of a value without a unit is lost", "anchors": ["castep_outputs/parsers/castep_file_parser.py::_process_pair_params", "castep_outputs/utilities/castep_res.py::PAIR_POT_RES"]}
{"id": "C113", "title": "devel_code blocks: settings, flags and sub-blocks are reported, and nothing else", "statement": "A devel_code block of a .cell or .param file gives a dictionary with every setting, written key=value or key:value, under its normalised name with its value (a number as integer or nearest floating-point number, a logical, or the text), every other word under its name with None, and every sub-block `NAME: ... :endNAME` under its name with the settings in it. There are no other entries.", "quantifier": "all blocks of any number of lines, with comments and blank lines anywhere; all names of letters, digits and underscores; all values without blanks", "why_tests_cant": "one test with a handful of settings; that no part of a value is taken for something else, whatever the values, is a statement about all blocks", "anchors": ["castep_outputs/parsers/cell_param_file_parser.py::_parse_devel_code_block", "castep_outputs/utilities/castep_res.py::DEVEL_CODE_VAL_RE"]}
