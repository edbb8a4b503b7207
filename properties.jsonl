{"id": "C01", "title": "Data-set discovery finds exactly the delimiter pairs", "statement": "Opening or refreshing a file reports floor(T/2) data-sets, where T is the number of offsets at which the six bytes '    -1' occur and are followed by end of file, LF, CR, or 74 blanks and at least one more byte; data-set k is exactly the bytes from the (2k)-th such offset up to (excluding) the (2k+1)-th, and refreshing reports the type given by the first six bytes of its second line (0 when that is not an integer).", "quantifier": "every byte sequence as file content", "why_tests_cant": "Test files cover a handful of layouts; the claim is about every byte string, including binary payloads and truncated files.", "anchors": ["pyuff/pyuff.py:UFF.refresh", "pyuff/pyuff.py:UFF.__init__", "pyuff/pyuff.py:UFF.get_n_sets", "pyuff/pyuff.py:UFF.get_set_types"]}
{"id": "C02", "title": "Appending never disturbs earlier data-sets", "statement": "If the file is absent, empty or ends in a newline, then whatever write_sets(..., mode='add') appends (complete, failing half-way, any data-set), all old bytes stay as a prefix and every data-set that was visible before keeps its index, type and block content.", "quantifier": "every newline-terminated file, every data-set dictionary, success or failure of the write", "why_tests_cant": "Needs all existing file contents times all appended contents.", "anchors": ["pyuff/pyuff.py:UFF._write_set", "pyuff/pyuff.py:UFF.write_sets", "pyuff/pyuff.py:UFF.refresh"]}
{"id": "C03", "title": "Counting: writing N data-sets yields N more data-sets of the right types, in order", "statement": "After write_sets of a list of N well-formed supported data-sets to a file whose delimiters are balanced, get_n_sets() grows by exactly N and get_set_types() is the old list followed by the written types in order.", "quantifier": "every N, every list of well-formed data-sets, every prior history of such writes", "why_tests_cant": "Unbounded histories and mixed types.", "anchors": ["pyuff/pyuff.py:UFF.write_sets", "pyuff/pyuff.py:UFF.refresh", "pyuff/pyuff.py:UFF.get_set_types"]}
{"id": "C04", "title": "Overwrite discards the old content and nothing else", "statement": "write_sets(ds,'overwrite') leaves the same file whatever the file contained before, and it is the same file as write_sets(ds,'add') to a fresh path.", "quantifier": "every prior content, every list of data-sets (violated by binary 58: counterexample proved)", "why_tests_cant": "All prior contents and data-set lists; the failing case needs a specific combination of mode and binary flag.", "anchors": ["pyuff/pyuff.py:UFF._write_set", "pyuff/pyuff.py:UFF.write_sets", "pyuff/datasets/dataset_58.py:_write58"]}
{"id": "C05", "title": "Whole-file round trip for mixed data-set lists", "statement": "Writing any list of well-formed data-sets of the supported types and calling read_sets() returns the list of their read-back dictionaries in the same order (a bare dictionary when there is one).", "quantifier": "every list (any length, any mixture of types) of well-formed data-sets", "why_tests_cant": "Unbounded heterogeneous lists; interaction of every writer with the delimiter scanner.", "anchors": ["pyuff/pyuff.py:UFF.write_sets", "pyuff/pyuff.py:UFF.read_sets", "pyuff/pyuff.py:UFF._read_set"]}
{"id": "C06", "title": "read_sets selection semantics", "statement": "read_sets(k) equals the k-th entry of read_sets(); read_sets([k1,...,km]) returns those entries in the requested order with repetition; a result of length one is returned unwrapped; any index < 0 or >= get_n_sets() raises and no result is returned.", "quantifier": "every file, every index or index list", "why_tests_cant": "All index lists, all files.", "anchors": ["pyuff/pyuff.py:UFF.read_sets", "pyuff/pyuff.py:UFF._read_set"]}
{"id": "C07", "title": "Reading never changes anything", "statement": "refresh, the getters and read_sets never modify the file; refresh is idempotent; repeating a read gives the same answer as long as the file is not changed.", "quantifier": "every file and every sequence of read-only operations", "why_tests_cant": "All operation sequences.", "anchors": ["pyuff/pyuff.py:UFF.refresh", "pyuff/pyuff.py:UFF.read_sets", "pyuff/pyuff.py:UFF.get_n_sets"]}
{"id": "C08", "title": "Crash during append keeps earlier data-sets readable", "statement": "If an append is cut at any byte (crash, full disk), reopening the file shows all earlier data-sets with unchanged index, type and content.", "quantifier": "every newline-terminated file with balanced delimiters, every appended text, every cut point", "why_tests_cant": "Every crash point.", "anchors": ["pyuff/pyuff.py:UFF.refresh", "pyuff/pyuff.py:UFF._write_set"]}
{"id": "C09", "title": "A failed write leaves the file usable", "statement": "If write_sets raises, the file content is as before the call. (Violated: writers emit the start delimiter before looking up required keys, so a failed append leaves a dangling delimiter that mis-pairs every later data-set; counterexample and the exact failure contract are proved.)", "quantifier": "every data-set dictionary that makes a writer raise", "why_tests_cant": "All malformed dictionaries and the later history.", "anchors": ["pyuff/pyuff.py:UFF._write_set", "pyuff/datasets/dataset_82.py:_write82", "pyuff/datasets/dataset_15.py:_write15", "pyuff/datasets/dataset_58.py:_write58"]}
{"id": "C10", "title": "File info reported by the object is a function of the file", "statement": "After a refresh the reported number, types and formats of data-sets depend on the current file content only, not on the history of the object. (Violated when the refreshed file has no complete block: stale values remain; counterexample proved.)", "quantifier": "every object history and file content", "why_tests_cant": "All histories.", "anchors": ["pyuff/pyuff.py:UFF.refresh", "pyuff/pyuff.py:UFF.get_n_sets"]}
{"id": "C11", "title": "get_set_formats distinguishes binary data-sets", "statement": "get_set_formats() reports 1 for a data-set whose identifier line has b/B in column 7 and 0 otherwise. (Violated: it reports 0 for every data-set of every file; proved.)", "quantifier": "every file", "why_tests_cant": "All files; a proof is needed that no file gives 1.", "anchors": ["pyuff/pyuff.py:UFF.refresh", "pyuff/pyuff.py:UFF.get_set_formats"]}
{"id": "C12", "title": "Unsupported data-set types are ignored", "statement": "Writing a dictionary whose type is not supported in mode 'add' leaves the file content unchanged (creating an empty file if absent); reading a block of unsupported type returns just {'type': t}.", "quantifier": "every unsupported type, every file", "why_tests_cant": "All types and files.", "anchors": ["pyuff/pyuff.py:UFF._write_set", "pyuff/pyuff.py:UFF._read_set", "pyuff/pyuff.py:_SUPPORTED_SETS"]}
{"id": "C13", "title": "Invalid calls raise and leave the file alone", "statement": "write_sets([]) and write_sets with an unknown mode raise without touching the file; read_sets on a non-existing file raises; a dictionary without type raises.", "quantifier": "every file, every mode string, every dictionary", "why_tests_cant": "All mode strings and contents.", "anchors": ["pyuff/pyuff.py:UFF.write_sets", "pyuff/pyuff.py:UFF._write_set", "pyuff/pyuff.py:UFF.read_sets"]}
{"id": "C14", "title": "Optional fields: defaults fill only what is missing", "statement": "During a write, a key present in the user's dictionary keeps its value, every documented optional key that is missing is set to its documented default, no other key is added, and the caller's dictionary shows the result; prepare_* returns exactly the keys whose argument is not None.", "quantifier": "every dictionary and every default table", "why_tests_cant": "All dictionaries.", "anchors": ["pyuff/tools.py:_opt_fields", "pyuff/tools.py:check_dict_for_none"]}
{"id": "C15", "title": "Fixed-width header parsing", "statement": "A header line is cut into consecutive fields of the given widths (short lines padded with blanks); a mandatory numeric field that is blank or malformed raises; an optional numeric field that is blank or malformed gives 0 / 0.0; string fields are stripped; ignored fields never appear in the result; it never returns fields beyond the requested ones.", "quantifier": "every line, every width/type/name table", "why_tests_cant": "All lines and tables.", "anchors": ["pyuff/tools.py:_parse_header_line"]}
{"id": "C16", "title": "Round trip of data-set 15 (nodes)", "statement": "Writing a data-set 15 and reading it back returns the same node numbers, coordinate systems and colours (as floats) and the coordinates rounded to 6 significant digits, for any number of nodes, provided integers fit 9 columns and coordinates do not fill all 13 columns.", "quantifier": "every number of nodes and all field values within the stated widths", "why_tests_cant": "All arrays of all lengths with all field values; tests use one or two hand-made sets.", "anchors": ["pyuff/datasets/dataset_15.py:_write15", "pyuff/datasets/dataset_15.py:_extract15", "pyuff/pyuff.py:UFF.write_sets", "pyuff/pyuff.py:UFF.read_sets"]}
{"id": "C17", "title": "Round trip of data-set 18 (coordinate systems)", "statement": "Writing a data-set 18 and reading it back returns the same numbers, names (stripped) and points rounded to 6 significant digits, for any number of coordinate systems. Condition in all round-trip properties: the integers fit their columns and no line written ends like a delimiter ('    -1').", "quantifier": "every number of coordinate systems, all names without line breaks of at most 40 characters, all finite points", "why_tests_cant": "All arrays of all lengths with all field values; tests use one or two hand-made sets.", "anchors": ["pyuff/datasets/dataset_18.py:_write18", "pyuff/datasets/dataset_18.py:_extract18", "pyuff/pyuff.py:UFF.write_sets", "pyuff/pyuff.py:UFF.read_sets"]}
{"id": "C18", "title": "Round trip of data-set 55 (data at nodes, real data)", "statement": "Writing a data-set 55 with real data (analysis types 2, 3, 5, 7; 3 or 6 values per node) and reading it back returns the same header fields, node numbers and values rounded to 6 significant digits. Condition in all round-trip properties: the integers fit their columns and no line written ends like a delimiter ('    -1').", "quantifier": "every number of nodes, all finite values, all supported analysis types", "why_tests_cant": "All arrays of all lengths with all field values; tests use one or two hand-made sets.", "anchors": ["pyuff/datasets/dataset_55.py:_write55", "pyuff/datasets/dataset_55.py:_extract55", "pyuff/pyuff.py:UFF.write_sets", "pyuff/pyuff.py:UFF.read_sets"]}
{"id": "C19", "title": "Round trip of data-set 55 (data at nodes, complex data)", "statement": "The same with complex data: real and imaginary parts come back rounded to 6 significant digits. (Violated when r4, r5, r6 are also given: the file written cannot be read; counterexample proved.)", "quantifier": "every number of nodes, all finite complex values, all supported analysis types", "why_tests_cant": "All arrays of all lengths with all field values; tests use one or two hand-made sets.", "anchors": ["pyuff/datasets/dataset_55.py:_write55", "pyuff/datasets/dataset_55.py:_extract55", "pyuff/pyuff.py:UFF.write_sets", "pyuff/pyuff.py:UFF.read_sets"]}
{"id": "C20", "title": "Round trip of data-set 58 (ASCII, double precision)", "statement": "Writing data-set 58 in ASCII (default double precision) and reading it back returns the header fields, the right number of points and the ordinate rounded to 12 significant digits, for real/complex data and even/uneven abscissa; an uneven abscissa comes back rounded to 6 digits, an even one is min + i*increment of the values written in the header. Condition in all round-trip properties: the integers fit their columns and no line written ends like a delimiter ('    -1').", "quantifier": "every number of points >= 2, all finite data, four storage cases", "why_tests_cant": "All arrays of all lengths with all field values; tests use one or two hand-made sets.", "anchors": ["pyuff/datasets/dataset_58.py:_write58", "pyuff/datasets/dataset_58.py:_extract58", "pyuff/pyuff.py:UFF.write_sets", "pyuff/pyuff.py:UFF.read_sets"]}
{"id": "C21", "title": "Round trip of data-set 58 (ASCII, single precision)", "statement": "With force_double=False and ord_data_type 2/5 the same holds with 6 significant digits. Condition in all round-trip properties: the integers fit their columns and no line written ends like a delimiter ('    -1').", "quantifier": "every number of points >= 2, all finite data", "why_tests_cant": "All arrays of all lengths with all field values; tests use one or two hand-made sets.", "anchors": ["pyuff/datasets/dataset_58.py:_write58", "pyuff/datasets/dataset_58.py:_extract58", "pyuff/pyuff.py:UFF.write_sets", "pyuff/pyuff.py:UFF.read_sets"]}
{"id": "C22", "title": "Round trip of data-set 58b (binary)", "statement": "Writing data-set 58 with binary=1 in mode 'add' and reading it back returns bit-identical data (double precision) on little- and big-endian machines, provided the payload contains no delimiter pattern. (Violated for single precision ord_data_type, for mode 'overwrite' and for payloads containing the delimiter: counterexamples proved.)", "quantifier": "every number of points >= 2, every bit pattern of the data, both byte orders", "why_tests_cant": "All arrays of all lengths with all field values; tests use one or two hand-made sets.", "anchors": ["pyuff/datasets/dataset_58.py:_write58", "pyuff/datasets/dataset_58.py:_extract58", "pyuff/pyuff.py:UFF.write_sets", "pyuff/pyuff.py:UFF.read_sets"]}
{"id": "C23", "title": "Round trip of data-set 82 (trace lines)", "statement": "Writing a data-set 82 and reading it back returns every node of the trace line in order. (Violated when equal consecutive nodes make the node-change count a multiple of 8: trailing nodes are silently dropped; exact behaviour and counterexample proved.)", "quantifier": "every node array of any length", "why_tests_cant": "All arrays of all lengths with all field values; tests use one or two hand-made sets.", "anchors": ["pyuff/datasets/dataset_82.py:_write82", "pyuff/datasets/dataset_82.py:_extract82", "pyuff/pyuff.py:UFF.write_sets", "pyuff/pyuff.py:UFF.read_sets"]}
{"id": "C24", "title": "Round trip of data-set 151 (header)", "statement": "Writing a data-set 151 and reading it back returns the same (stripped) strings and integers; the write dates given by the user are stored. Condition in all round-trip properties: the integers fit their columns and no line written ends like a delimiter ('    -1').", "quantifier": "all strings without line breaks within the field widths", "why_tests_cant": "All arrays of all lengths with all field values; tests use one or two hand-made sets.", "anchors": ["pyuff/datasets/dataset_151.py:_write151", "pyuff/datasets/dataset_151.py:_extract151", "pyuff/pyuff.py:UFF.write_sets", "pyuff/pyuff.py:UFF.read_sets"]}
{"id": "C25", "title": "Round trip of data-set 164 (units)", "statement": "Writing a data-set 164 and reading it back returns the integers, the (stripped) description and bit-identical conversion factors. Condition in all round-trip properties: the integers fit their columns and no line written ends like a delimiter ('    -1').", "quantifier": "all finite doubles, all descriptions of at most 20 characters", "why_tests_cant": "All arrays of all lengths with all field values; tests use one or two hand-made sets.", "anchors": ["pyuff/datasets/dataset_164.py:_write164", "pyuff/datasets/dataset_164.py:_extract164", "pyuff/pyuff.py:UFF.write_sets", "pyuff/pyuff.py:UFF.read_sets"]}
{"id": "C26", "title": "Round trip of data-set 1858 (58 qualifiers)", "statement": "Writing a data-set 1858 and reading it back returns all integer qualifiers, the floats rounded to 8 significant digits and the two direction strings. (Violated for octave_format with 9 or more characters: record 1 is written with 10-column and read with 12-column fields; counterexample proved.)", "quantifier": "all qualifier values", "why_tests_cant": "All arrays of all lengths with all field values; tests use one or two hand-made sets.", "anchors": ["pyuff/datasets/dataset_1858.py:_write1858", "pyuff/datasets/dataset_1858.py:_extract1858", "pyuff/pyuff.py:UFF.write_sets", "pyuff/pyuff.py:UFF.read_sets"]}
{"id": "C27", "title": "Round trip of data-set 2400 (model header)", "statement": "Writing a data-set 2400 and reading it back returns the same integers, strings and 32 status flags. (Violated when primary_parent_uid, version_number or optimization_switches is -1: the record is taken for a delimiter; counterexample proved.)", "quantifier": "all integers within their columns, all names of at most 80 characters", "why_tests_cant": "All arrays of all lengths with all field values; tests use one or two hand-made sets.", "anchors": ["pyuff/datasets/dataset_2400.py:_write2400", "pyuff/datasets/dataset_2400.py:_extract2400", "pyuff/pyuff.py:UFF.write_sets", "pyuff/pyuff.py:UFF.read_sets"]}
{"id": "C28", "title": "Round trip of data-set 2411 (nodes, double precision)", "statement": "Writing a data-set 2411 and reading it back returns the same integers (as floats) and bit-identical coordinates for any number of nodes (colour -1 excepted: counterexample).", "quantifier": "every number of nodes, all finite doubles", "why_tests_cant": "All arrays of all lengths with all field values; tests use one or two hand-made sets.", "anchors": ["pyuff/datasets/dataset_2411.py:_write2411", "pyuff/datasets/dataset_2411.py:_extract2411", "pyuff/pyuff.py:UFF.write_sets", "pyuff/pyuff.py:UFF.read_sets"]}
{"id": "C29", "title": "Round trip of data-set 2412 (elements)", "statement": "Writing a data-set 2412 and reading it back returns the same elements grouped by fe descriptor, and the legacy triangle/quad views. (Violated for beam descriptors 21-24: the beam record is not written; and dictionaries built by prepare_2412 as documented write no element at all; counterexamples proved.)", "quantifier": "every number of elements, every node list", "why_tests_cant": "All arrays of all lengths with all field values; tests use one or two hand-made sets.", "anchors": ["pyuff/datasets/dataset_2412.py:_write2412", "pyuff/datasets/dataset_2412.py:_extract2412", "pyuff/pyuff.py:UFF.write_sets", "pyuff/pyuff.py:UFF.read_sets"]}
{"id": "C30", "title": "Round trip of data-set 2414 (analysis data)", "statement": "Writing a data-set 2414 (frequency response; data at nodes, on elements, at nodes on elements) and reading it back returns header, labels and values rounded to 6 significant digits. (Violated for negative record-12/13 values, which shift the columns; for location 5, which leaves no end delimiter; for data without nodes; for element rows of more than six values; and frequency data of a data type other than 5 are not returned; counterexamples proved.)", "quantifier": "every number of nodes/elements, all finite values within widths", "why_tests_cant": "All arrays of all lengths with all field values; tests use one or two hand-made sets.", "anchors": ["pyuff/datasets/dataset_2414.py:_write2414", "pyuff/datasets/dataset_2414.py:_extract2414", "pyuff/pyuff.py:UFF.write_sets", "pyuff/pyuff.py:UFF.read_sets"]}
{"id": "C31", "title": "Round trip of data-set 2420 (coordinate systems)", "statement": "Writing a data-set 2420 and reading it back returns labels, types, colours, names and bit-identical 4x3 matrices for any number of systems. Condition in all round-trip properties: the integers fit their columns and no line written ends like a delimiter ('    -1').", "quantifier": "every number of systems, all finite doubles, all names without line breaks", "why_tests_cant": "All arrays of all lengths with all field values; tests use one or two hand-made sets.", "anchors": ["pyuff/datasets/dataset_2420.py:_write2420", "pyuff/datasets/dataset_2420.py:_extract2420", "pyuff/pyuff.py:UFF.write_sets", "pyuff/pyuff.py:UFF.read_sets"]}
{"id": "C32", "title": "Round trip of data-set 2429 (permanent groups)", "statement": "Writing a data-set 2429 and reading it back returns the group with all entity type codes and tags in order. (Violated whenever the entity count is not a multiple of 4 and is not 1: wrong entities are written or the write fails; dictionaries from prepare_2429 cannot be written; counterexamples proved.)", "quantifier": "every entity list", "why_tests_cant": "All arrays of all lengths with all field values; tests use one or two hand-made sets.", "anchors": ["pyuff/datasets/dataset_2429.py:_write2429", "pyuff/datasets/dataset_2429.py:_extract2429", "pyuff/pyuff.py:UFF.write_sets", "pyuff/pyuff.py:UFF.read_sets"]}
{"id": "C33", "title": "Round trip of data-set 2467 (groups)", "statement": "Writing a data-set 2467 and reading it back returns all groups with all entities in order. Condition in all round-trip properties: the integers fit their columns and no line written ends like a delimiter ('    -1').", "quantifier": "every number of groups and entities", "why_tests_cant": "All arrays of all lengths with all field values; tests use one or two hand-made sets.", "anchors": ["pyuff/datasets/dataset_2467.py:_write2467", "pyuff/datasets/dataset_2467.py:_extract2467", "pyuff/pyuff.py:UFF.write_sets", "pyuff/pyuff.py:UFF.read_sets"]}
{"id": "C34", "title": "Seventeen-digit fields are bit-exact", "statement": "A finite double written in a %25.16e field (164, 2411, 2420) and read back is the same double bit for bit.", "quantifier": "every finite double", "why_tests_cant": "2^64 values.", "anchors": ["pyuff/datasets/dataset_164.py:_write164", "pyuff/datasets/dataset_2411.py:_write2411", "pyuff/datasets/dataset_2420.py:_write2420"]}
{"id": "C35", "title": "Re-saving does not drift", "statement": "A value written with 6, 8 or 12 significant digits is written as a decimal of exactly that many digits no further from it than half a unit of the last digit; the value read back is the double nearest to that decimal, within one unit of the last digit of the original, with the same sign and finite; writing the value read back produces exactly the same text, so any number of read/write cycles gives the value of the first. (Subnormal doubles can drift once: counterexample proved.)", "quantifier": "every finite (normal) double", "why_tests_cant": "2^64 values.", "anchors": ["pyuff/datasets/dataset_15.py:_write15", "pyuff/datasets/dataset_55.py:_write55", "pyuff/datasets/dataset_58.py:_write58"]}
{"id": "C36", "title": "NaN and infinities in data never reach the file", "statement": "When a dictionary has a 'data' key, the data written contains no NaN or infinity: NaN becomes 0.0 and +-inf the largest finite double; finite values are unchanged.", "quantifier": "every data array", "why_tests_cant": "All bit patterns.", "anchors": ["pyuff/pyuff.py:UFF._write_set"]}
{"id": "C37", "title": "fix_58b only moves misplaced end delimiters", "statement": "fix_58b changes no file but its target (never the source when the default name is used) and raises only when the source is missing; a file without misplaced delimiters is copied verbatim; only white space is removed or added; in a file of data-sets whose closing delimiters are on lines of their own, each delimiter moves directly behind the data and every byte of data is kept, so the same data-sets are found and a file written by the package is restored exactly; applying it twice equals applying it once.", "quantifier": "every file, every number of data-sets, text or binary, LF or CR LF line ends", "why_tests_cant": "All byte strings.", "anchors": ["pyuff/datasets/dataset_58.py:fix_58b"]}
{"id": "C38", "title": "convert_dataset_2412_to_82 draws every quad as a closed loop", "statement": "For each 2412 data-set with quads, one trace line is returned with, per quad [a,b,c,d], the nodes a b 0 b c 0 c d 0 d a 0 in order. (Violated for more than one such data-set: the call raises; counterexample proved.)", "quantifier": "every list of data-sets, every number of quads", "why_tests_cant": "All lists.", "anchors": ["pyuff/tools.py:convert_dataset_2412_to_82"]}
{"id": "C39", "title": "prepare_group stores what it is given", "statement": "prepare_group returns each active-set number under its own key. (Violated: the temperature and contact numbers are replaced by the dof number; exact behaviour proved.)", "quantifier": "every argument tuple", "why_tests_cant": "All integer arguments.", "anchors": ["pyuff/datasets/dataset_2429.py:prepare_group", "pyuff/datasets/dataset_2467.py:prepare_group"]}
{"id": "C40", "title": "header_only read agrees with the full read", "statement": "read_sets(header_only=True) returns for every data-set 58 the same header fields as the full read, with x and data None, whenever the full read succeeds; for the other types it changes nothing.", "quantifier": "every file", "why_tests_cant": "All files.", "anchors": ["pyuff/datasets/dataset_58.py:_extract58", "pyuff/pyuff.py:UFF.read_sets"]}
{"id": "C41", "title": "Saving again what was read changes nothing", "statement": "When data-sets are written to a new file and read, the dictionaries that read_sets returns can be written to another file, at any later time, and reading that file returns the same dictionaries; so however often a file is read and saved, it does not drift after the first time. (Violated for 2429, and for some data-sets of types 18, 55, 58, 82, 151, 2414 and 2420.)", "quantifier": "every list of well-formed data-sets of all fifteen types, both storage formats of data-set 58, every later time", "why_tests_cant": "All data-sets, all numbers (rounding to 6, 8 and 12 digits is idempotent on every finite double, subnormal ones included), all list lengths.", "anchors": ["pyuff/pyuff.py:UFF.read_sets", "pyuff/pyuff.py:UFF._write_set", "pyuff/datasets/dataset_58.py:_write58", "pyuff/datasets/dataset_58.py:_extract58"]}
{"id": "C42", "title": "Adding to a file whose last line has no line end", "statement": "Appending to a file that does not end with a line feed must not disturb the data-sets of the file nor lose those that are added. (True of the old data-sets when the last byte is not a blank, '-' or '1'; violated for a file that ends with a bare delimiter: every data-set that is added is lost, without an error, and the last old one is changed.)", "quantifier": "every file content, every list of dictionaries (for the loss: every file of complete data-sets and every list of well-formed data-sets of all fifteen types)", "why_tests_cant": "Every test file ends with a line feed; the claim ranges over all contents and all lists.", "anchors": ["pyuff/pyuff.py:UFF._write_set", "pyuff/pyuff.py:UFF.refresh"]}
{"id": "C43", "title": "CR LF line ends do not matter to reading", "statement": "A file whose lines end with CR LF holds the same data-sets, with the same types and the same values, as the file whose lines end with LF: every read_sets call has the same outcome, for every selection and with or without header_only. (Violated for binary data-sets 58, and for data-sets 55 of other programs whose columns are narrower.)", "quantifier": "every file content without carriage returns, every selection; and every file pyuff writes from well-formed data-sets, none of them binary", "why_tests_cant": "All file contents and all lists of data-sets; the line end is cut into the last cell of a fixed-width line only for particular line lengths.", "anchors": ["pyuff/pyuff.py:UFF.refresh", "pyuff/pyuff.py:UFF._read_set", "pyuff/tools.py:_parse_header_line", "pyuff/datasets/dataset_55.py:_extract55", "pyuff/datasets/dataset_58.py:_extract58"]}
{"id": "C44", "title": "Writing on Windows", "statement": "Where text mode turns LF into CR LF, writing data-sets without binary values writes exactly the file written elsewhere with CR LF line ends and has the same outcome; data-sets of all types, binary ones too, are counted, kept and read back as elsewhere.", "quantifier": "every list of dictionaries without binary values (also when the write fails half-way); every list of well-formed data-sets of all fifteen types, every file of complete data-sets they are appended to", "why_tests_cant": "The test-suite is run on one platform; the claim ranges over all lists of data-sets and all earlier contents.", "anchors": ["pyuff/pyuff.py:UFF._write_set", "pyuff/datasets/dataset_58.py:_write58"]}
{"id": "C45", "title": "Objects behave as views of a list of data-sets", "statement": "Any history of calls (create, getters, refresh, read_sets, write_sets in both modes, refused and failing calls) of any number of UFF objects for one file gives the answers of a simple machine that keeps a list of data-sets and, for each object, the part of the list it has seen; an object that is not refreshed keeps answering from the beginning of the file it knows, whatever the others append.", "quantifier": "every history of calls of any length, any number of objects, any interleaving, every starting file of complete data-sets (or none), all well-formed data-sets", "why_tests_cant": "The number of histories and interleavings is unbounded; the test-suite uses at most two objects after one another.", "anchors": ["pyuff/pyuff.py:UFF.__init__", "pyuff/pyuff.py:UFF.refresh", "pyuff/pyuff.py:UFF.read_sets", "pyuff/pyuff.py:UFF.write_sets", "pyuff/pyuff.py:UFF._write_set"]}
{"id": "C46", "title": "Values of data-set 58 from other programs", "statement": "When the lines after the header of an ASCII data-set 58 have the columns of the standard (6E13.5, 4E20.12, 2(E13.5,E20.12), E13.5 2E20.12), with any number of cells on a line and with blanks after the last value, reading returns exactly the numbers in the cells, put together as abscissa and ordinate; when a cell is not a number reading fails. The values of a binary data-set are the IEEE words after the 13 header lines, in the order announced, whatever the line ends of the header and with a rest that does not fill a word dropped.", "quantifier": "every file, every data-set 58 in it, all six layouts, every number of lines, cells and points, both byte orders and word sizes", "why_tests_cant": "The tests read a handful of sample files; programs differ in the number of values on a line, padding, line ends, spelling of numbers, and wrong counts in the header.", "anchors": ["pyuff/datasets/dataset_58.py:_extract58"]}
{"id": "C47", "title": "Nodes, trace lines and elements from other programs", "statement": "When another program wrote nodes (15, 2411), a trace line (82) or elements (2412) as numbers separated by blanks, reading returns exactly these numbers, whatever the widths of the columns, the number of blanks and the line ends; in a data-set 2411 the exponent letter may be D; a word that is not a number makes reading fail.", "quantifier": "every file, every data-set of these types in it, every number of nodes and elements, every layout of blanks and lines allowed by the format", "why_tests_cant": "The tests read a few sample files written by pyuff and by one or two other programs; layouts of other programs differ in widths, blanks, exponent letters and the number of nodes per line.", "anchors": ["pyuff/datasets/dataset_15.py:_extract15", "pyuff/datasets/dataset_82.py:_extract82", "pyuff/datasets/dataset_2411.py:_extract2411", "pyuff/datasets/dataset_2412.py:_extract2412"]}
{"id": "C48", "title": "Entries that must be present", "statement": "A call of write_sets fails if one of its dictionaries lacks an entry for which the writer has no default: an entry needed by the type, an entry needed for each item when there is an item, or an entry needed for the analysis type. No other entry is needed. A data-set 58 of a function type other than 0, 1, 2, 3, 4, 6, 9 and a data-set 55 of an analysis type other than 2, 3, 5, 7 are refused before anything is written. (False of the code: that whatever was read can be saved.)", "quantifier": "every file and object, every mode, every list of dictionaries, every dictionary whatever its other entries, every missing entry of the list for each of the types, every function and analysis type", "why_tests_cant": "There are about a hundred pairs of type and needed entry, each to be left out of dictionaries with any other content; the tests always give complete dictionaries.", "anchors": ["pyuff/pyuff.py:UFF.write_sets", "pyuff/datasets/dataset_58.py:_write58", "pyuff/datasets/dataset_55.py:_write55", "pyuff/datasets/dataset_2414.py:_write2414", "pyuff/tools.py:_opt_fields"]}
{"id": "C49", "title": "Reading loops end or never end", "statement": "The loops that read the groups of data-sets 2429 and 2467 and the elements of data-set 2414 either end within 2 L + 1 passes on a block of L lines, or never end and collect one more item in each pass. They end within L + 1 passes when no line announces a group of -8 entities or fewer (-4 for 2467), or an element with -6 values or fewer or a negative number of nodes. When they end, the reader's result is made of the items collected. (False of the code: that reading always ends; a group announced with -8 to -11 entities, -4 or -5 for 2467, or an element with -1 lines of values, is read for ever.)", "quantifier": "every text of a block, every number of lines, every number of passes, every position of the line at which the index stops", "why_tests_cant": "A test cannot observe that a loop never ends, and the counts that stop the index are among any integers on any line of any block.", "anchors": ["pyuff/datasets/dataset_2429.py:_extract2429", "pyuff/datasets/dataset_2467.py:_extract2467", "pyuff/datasets/dataset_2414.py:_extract2414"]}
{"id": "C50", "title": "Data-sets are independent of the rest of the file", "statement": "Lines without a delimiter between data-sets are ignored by every call. Changing lines without a delimiter inside one data-set changes neither the number, the types nor the content of the others. Any data-sets of a file, each with its closing delimiter, written one behind the other in any order and number, are a file from which read_sets() reads what read_sets(list) reads from the first file. Two files one behind the other hold the data-sets of both.", "quantifier": "every file given as bytes, every place in it at a line end, all lines put there instead of others, every selection of data-sets", "why_tests_cant": "Files, edits and selections are unbounded, and the property is about all unaffected data-sets whatever their content, readable or not.", "anchors": ["pyuff/pyuff.py:UFF.refresh", "pyuff/pyuff.py:UFF.read_sets", "pyuff/pyuff.py:UFF._read_set", "pyuff/pyuff.py:UFF.get_set_types"]}
{"id": "C51", "title": "Headers, units and qualifiers of any program are read by columns", "statement": "A data-set 151, 164, 1858 or 2400 is read exactly when the lines it is read from exist and hold numbers in the columns (164: four further words) where numbers are required; texts and numbers are then those of the columns, missing or malformed optional integers are 0, and all other lines and columns have no influence. In every other case reading ends with the documented error.", "quantifier": "every file given as bytes with a data-set of one of these types, whatever program wrote it and however long or short its lines are", "why_tests_cant": "The contents and lengths of the lines are unbounded; the claim is an equivalence, so it is also about all files that are refused.", "anchors": ["pyuff/datasets/dataset_151.py:_extract151", "pyuff/datasets/dataset_164.py:_extract164", "pyuff/datasets/dataset_1858.py:_extract1858", "pyuff/datasets/dataset_2400.py:_extract2400", "pyuff/tools.py:_parse_header_line"]}
{"id": "C52", "title": "Groups of any program are read with all entities", "statement": "Groups in a data-set 2429 or 2467, written by any program, are read in order with their numbers, names and all their entities, however the entities are distributed over the lines. (False of the code for 2429: a group without entities at the end of the data-set is lost, whatever groups are before it, and a data-set that ends before all entities have been given is accepted.)", "quantifier": "every file given as bytes with such a data-set, any number of groups and entities, any distribution of the numbers over the announced number of lines, any names", "why_tests_cant": "The layouts, numbers of groups and numbers of entities are unbounded, and other programs distribute blanks and numbers in ways the writer of pyuff never produces.", "anchors": ["pyuff/datasets/dataset_2429.py:_extract2429", "pyuff/datasets/dataset_2467.py:_extract2467"]}
{"id": "C53", "title": "Coordinate systems of any program are read", "statement": "Coordinate systems in a data-set 18 or 2420, written by any program, are read in order with their numbers, names, colours and coordinates; in a data-set 2420 numbers are separated by blanks in any way and exponents are marked with E or D. (False of the code for 18: lines are joined without a separator, so that lines beginning in the first column are misread, and coordinate lines filled up with blanks cannot be read.)", "quantifier": "every file given as bytes with such a data-set, any number of systems, any layout of the numbers", "why_tests_cant": "The layouts and numbers are unbounded; tests with files of pyuff only see one layout.", "anchors": ["pyuff/datasets/dataset_18.py:_extract18", "pyuff/datasets/dataset_2420.py:_extract2420"]}
{"id": "C54", "title": "Results of any program are read", "statement": "Results in a data-set 2414, written by any program, are read in order with the header, the numbers of the nodes or elements and all their values, whether they are at nodes, on elements or at nodes on elements, and for frequency responses with the first three components of the complex values; a data-set without the required header numbers is refused with the documented error. (False of the code: values of a node in several lines cannot be read, data at points are silently ignored, a frequency response on elements is misread without an error, and a data-set with more nodes than lines of values is accepted.)", "quantifier": "every file given as bytes with such a data-set, any number of nodes and elements and values, any layout of the numbers within lines", "why_tests_cant": "The layouts, the numbers of values and the combinations of location, analysis type and data type are unbounded; files written by pyuff show one layout.", "anchors": ["pyuff/datasets/dataset_2414.py:_extract2414"]}
{"id": "C55", "title": "Data at nodes of any program are read", "statement": "Data at nodes in a data-set 55, written by any program, are read in order with the header of their kind of analysis, the numbers of the nodes and all their values, three or six real or three complex ones for each node; other types of data and headers without the required numbers are refused with the documented error. (False of the code: lines of values filled up with blanks cannot be read, scalar data are dealt to six directions without an error, and a data-set that ends after record 6 may be accepted as empty.)", "quantifier": "every file given as bytes with such a data-set, any number of nodes, any numbers in the cells, every kind of analysis", "why_tests_cant": "The numbers of nodes, the layouts of numbers within cells and the header values are unbounded; files written by pyuff show one layout.", "anchors": ["pyuff/datasets/dataset_55.py:_extract55"]}
{"id": "C56", "title": "Functions at nodal degrees of freedom of any program are read", "statement": "The header of a data-set 58 written by any program is read exactly as it stands in the columns of its thirteen lines, alone or with the values, and the values become abscissa and ordinate; headers without the required numbers and forms of values that are not known are refused with the documented error. (False of the code: binary values of a type that is not known are dropped without an error, and with an odd number of numbers for complex values the abscissa is longer than the ordinate.)", "quantifier": "every file given as bytes with such a data-set, ASCII or binary, any text in the columns, any number of values", "why_tests_cant": "Header lines and values are unbounded, and the claim says that a reading fails for every header that lacks a required number; files written by pyuff show one layout.", "anchors": ["pyuff/datasets/dataset_58.py:_extract58", "pyuff/tools.py:_parse_header_line"]}
{"id": "C57", "title": "Which texts are numbers, and which numbers they are", "statement": "A text is read as an integer exactly when it is a decimal integer: blanks around, an optional sign, digits of any script, single underscores between digits. A text is read as a float exactly when it is a decimal number with optional point and exponent, or inf, infinity or nan; the result is the nearest double, the even one on a tie, infinity from halfway above the greatest double on. The type of a data-set is read in the same way from ASCII bytes only. Numbers with the exponent letter D (Fortran double precision) are understood in data-sets 164, 2411 and 2420 and refused everywhere else.", "quantifier": "every text, every byte string, every integer and every double", "why_tests_cant": "The set of texts is infinite, and ties, overflow and the position of underscores are met by few of them; tests read a handful of numbers from sample files.", "anchors": ["pyuff/tools.py:50-90", "pyuff/pyuff.py:226-235", "pyuff/datasets/dataset_58.py:1095-1120", "pyuff/datasets/dataset_164.py:77-80", "pyuff/datasets/dataset_2411.py:60", "pyuff/datasets/dataset_2420.py:101-102"]}
{"id": "C58", "title": "Every data-set written is framed, every data-set read has its type and entries", "statement": "Whatever values a dictionary of a supported type holds, a write of it that succeeds adds a non-empty piece that begins with the delimiter line and the line with its type and ends with the delimiter line, so that the file keeps what it held, has at least one data-set more, and the first of them has that type; a write that fails leaves at most one such piece unfinished. Only results (2414) at location 5 other than frequency responses are never closed. Whatever bytes a data-set holds, reading it fails or gives a dictionary whose type is the one on its second line and whose entries are exactly those of that type, in a fixed order.", "quantifier": "every dictionary of a supported type, every file, every selection of fields, every data-set of every file", "why_tests_cant": "Tests write and read well-formed examples; the claims concern every dictionary and every sequence of bytes, including texts that contain delimiter lines and damaged data-sets.", "anchors": ["pyuff/pyuff.py:403-485", "pyuff/pyuff.py:324-401", "pyuff/datasets/dataset_2414.py:544-853", "pyuff/datasets/dataset_58.py:1019-1152"]}
{"id": "C59", "title": "Lines that look like a delimiter cut a data-set", "statement": "A record that ends in the columns of a delimiter line is one: a data-set written without an error ends, for the reader, at the first such line inside it, and what follows is lost or becomes other data-sets. It is read whole exactly if no line inside it looks like a delimiter; after an odd number of delimiters every data-set added later is lost. In particular nodes (2411) with a colour -1 come back cut after the first such node, with arrays of different lengths, and a model header (2400) with version, parent or switches -1, or units (164) with temperature mode -1, cannot be read at all; with any other values that fit their columns they come back.", "quantifier": "every dictionary, every file of complete data-sets, every list of nodes, every model header and units record that fits its columns", "why_tests_cant": "The claim is an equivalence over all values and all positions of the offending record in lists of any length, and over whatever the file already holds; tests write a few harmless values.", "anchors": ["pyuff/pyuff.py:202-221", "pyuff/datasets/dataset_2411.py:20-50", "pyuff/datasets/dataset_2400.py:46-98", "pyuff/datasets/dataset_164.py:47-83"]}
{"id": "C60", "title": "Texts that are read are on one line and trimmed", "statement": "Whatever a file contains, every text in the dictionaries that read_sets returns - names, descriptions, labels, also inside lists of names and groups - contains none of the ten characters at which Python ends a line, and does not end with a blank; texts do not begin with a blank either except in data-sets 2420, and have at most 80 characters except in data-sets 18 and 2420. So a dictionary with a text that holds a line break (also a file, group or record separator) or ends with a blank never comes back as it was written; the records after it are read from the wrong lines.", "quantifier": "every file, every state of the object, every selection, every text at any depth of every dictionary returned", "why_tests_cant": "The claim excludes characters from the texts of every readable file, damaged ones included, and covers the rarely used line separators of Python; tests read a few files with plain descriptions.", "anchors": ["pyuff/tools.py:19-84", "pyuff/datasets/dataset_18.py:76-115", "pyuff/datasets/dataset_2420.py:78-110", "pyuff/datasets/dataset_58.py:1019-1072", "pyuff/datasets/dataset_2467.py:104-151"]}
{"id": "C61", "title": "The arrays that are read belong together", "statement": "Whatever a file contains, the arrays of a dictionary that read_sets returns have matching lengths: for nodes (15, 2411), coordinate systems (18, 2420), data at nodes (55), groups (2429, 2467) and analysis data (2414) each array is as long as those listed before it or has one value less (the last entity is cut off in the file); the lists of triangles and quads (2412) and the data at nodes on elements are equally long; the status mask (2400) has 32 numbers; the points of data-set 18 have three coordinates; a function (58) has as many abscissas as ordinates, except for evenly spaced complex values, where there may be one abscissa too many.", "quantifier": "every file, every state of the object, every selection, every dictionary returned", "why_tests_cant": "The lengths follow from slicing one flat list of values whose length the file decides; a test only sees the lengths for the files at hand, and complete files never show the off-by-one cases.", "anchors": ["pyuff/datasets/dataset_15.py:59-77", "pyuff/datasets/dataset_18.py:76-115", "pyuff/datasets/dataset_55.py:505-533", "pyuff/datasets/dataset_58.py:1104-1150", "pyuff/datasets/dataset_2412.py:78-133", "pyuff/datasets/dataset_2414.py:751-853", "pyuff/datasets/dataset_2467.py:104-151"]}
{"id": "C62", "title": "No history of appending calls destroys a data-set; overwriting repairs the file", "statement": "Any number of UFF objects for one file that ends with a line feed are used in any order: they are created, refreshed, asked for counts and types, they read, and they add anything - well-formed data-sets, data-sets of unknown types, or dictionaries at which a writer raises half-way. As long as no call overwrites, the old bytes stay where they are, every data-set the file had at the beginning is still there under its number with the same bytes, type and content, and every object reads it as a new object would have read it at the beginning. Whatever state the file and the objects are in, a successful overwriting call with well-formed data-sets (the first one not binary) leaves a file that the same object and every new object read as exactly these data-sets.", "quantifier": "every file that ends with a line feed, every finite history of calls by any number of objects, all dictionaries given to the writers, every data-set, every object", "why_tests_cant": "The claim is an invariant over all interleavings of calls, including calls that raise at any point of any writer; tests run a few short histories of successful calls.", "anchors": ["pyuff/pyuff.py:89-116", "pyuff/pyuff.py:164-242", "pyuff/pyuff.py:244-322", "pyuff/pyuff.py:324-482"]}
{"id": "C63", "title": "Entries written as numbers must be numbers", "statement": "A call of write_sets fails when in one of its dictionaries an entry that is written as a number - a count, label, type or real value of a header, an entry that belongs to the analysis type, or the value of one of the items of data-sets 15, 55 or 2411 - is a text, None, a list or a dictionary. No such value is ever written, converted or replaced by a default.", "quantifier": "every file, every state of the object, every mode, every list of dictionaries, every position of the dictionary in it, every such entry of data-sets 15, 55, 58, 82, 164, 1858, 2400, 2411, 2414, 2420 and 2429, whatever the other entries are", "why_tests_cant": "There are about a hundred such entries and the failure must not depend on the values of the others; a test tries one wrong value in one entry of an otherwise correct dictionary.", "anchors": ["pyuff/datasets/dataset_15.py:36-57", "pyuff/datasets/dataset_55.py:351-456", "pyuff/datasets/dataset_58.py:827-943", "pyuff/datasets/dataset_164.py:47-66", "pyuff/datasets/dataset_1858.py:108-168", "pyuff/datasets/dataset_2411.py:32-49", "pyuff/datasets/dataset_2414.py:544-708"]}
{"id": "C64", "title": "Missing values are refused, surplus values are ignored", "statement": "When an entry of data-sets 15, 18, 55, 2411 or 2420 that has one value for each item (node, coordinate system) has fewer values than there are items, the call fails; for data-set 2420 also when it has more. In data-sets 15, 18, 55 and 2411 the values beyond the number of items have no influence on the file and the outcome of the call: they are lost without notice. A function (58) whose abscissas are not evenly spaced is refused when it has not as many abscissas as values; one with fewer than two abscissas is refused before anything is written; for an evenly spaced one only the first two abscissas count, whatever the others are and however many there are.", "quantifier": "every file, every state of the object, every mode, every list of dictionaries, every position of the dictionary in it, every such entry, all numbers of items and values", "why_tests_cant": "The claim is about arrays of every length, and that surplus values have no influence is a statement about pairs of runs that no single test shows.", "anchors": ["pyuff/datasets/dataset_15.py:39-51", "pyuff/datasets/dataset_18.py:48-72", "pyuff/datasets/dataset_55.py:429-450", "pyuff/datasets/dataset_58.py:880-905", "pyuff/datasets/dataset_58.py:944-962", "pyuff/datasets/dataset_2411.py:32-49", "pyuff/datasets/dataset_2420.py:64-67"]}
{"id": "C65", "title": "Writing a dictionary again writes the same", "statement": "The writers change the dictionaries they are given (NaN is replaced, defaults are filled in, three entries of data-set 58 and the complex entries of data-set 55 are set). Nevertheless the dictionaries that a call of write_sets leaves behind, written again to any file, at any later time and in any mode, do to that file exactly what the original ones would have done at the time of the first call, end in the same way (the same success or the same exception), and are not changed a second time; this holds whatever the dictionaries contain and also when the first call failed. Giving the same dictionary object several times in one call does to the file what as many copies of it would have done; only the dates of headers (151) depend on it, when the clock moves on during the call.", "quantifier": "every file, every state of the object, every mode, every list of dictionaries and every list of objects with any repetitions, every time", "why_tests_cant": "The claim compares pairs of calls for arbitrary dictionaries, including those at which a writer raises half-way after it has changed some entries; tests pass fresh literal dictionaries.", "anchors": ["pyuff/pyuff.py:284-322", "pyuff/pyuff.py:418-482", "pyuff/tools.py:4-17", "pyuff/datasets/dataset_55.py:351-456", "pyuff/datasets/dataset_58.py:827-1012", "pyuff/datasets/dataset_151.py:47-78"]}
{"id": "C66", "title": "The declared type of an ordinate is believed, not checked", "statement": "With force_double=False the entry ord_data_type of a data-set 58 decides the layout announced in the header and used by the reader, while the values in data decide what is written. When the two agree the function comes back. When they do not, the call succeeds all the same and the data never come back: equally spaced complex values declared real are read as twice as many real ones, equally spaced real values declared complex as half as many complex ones (the last of an odd number is lost), unequally spaced complex values in double precision declared real lose their imaginary parts, and unequally spaced real ones declared complex make a data-set that cannot be read. Any other type makes the call fail. With force_double=True the declared type, whatever it is, is replaced and does no harm.", "quantifier": "every file and object, every function with finite values, both kinds of spacing, both precisions, every declared type", "why_tests_cant": "The outcome depends on the combination of declared type, kind of values, precision, spacing and number of points; the tests write functions whose declared type is right, mostly with the default force_double.", "anchors": ["pyuff/datasets/dataset_58.py:881-905", "pyuff/datasets/dataset_58.py:944-1009", "pyuff/datasets/dataset_58.py:1098-1147"]}
{"id": "C67", "title": "Only the entries a writer uses matter", "statement": "For each type there is a fixed list of entries; two lists of dictionaries that agree on type, data and these entries do exactly the same to the file and have the same outcome (including which exception is raised), whatever other entries they have and in whatever order the entries stand. The lists are exact: each entry in them does change the file for some dictionary. For elements (2412) the lists of elements are used in the order in which the dictionary has them, so there two equal dictionaries can give different files.", "quantifier": "every file and object, every pair of lists of dictionaries of any length and with any contents, every mode, force_double, byte order and clock", "why_tests_cant": "Tests write a few dictionaries with the documented entries; that nothing else is ever looked at is a statement about all dictionaries.", "anchors": ["pyuff/pyuff.py:431-476", "pyuff/tools.py:4-17", "pyuff/datasets/dataset_2412.py:47-75", "pyuff/datasets/dataset_58.py:827-1016", "pyuff/datasets/dataset_55.py:351-455"]}
{"id": "C68", "title": "Exactly which dictionaries are written", "statement": "For every data-set type there is a table of entries with their kinds; a call of write_sets succeeds exactly when the mode is known, the list is not empty, and every dictionary has a type and acceptable values for the entries of that table (missing only where a default exists, lists long enough at the places that are written, integers finite, numbers that fit into a double, four rows of three numbers in a matrix, three more entries for a rod, the values that the location and the analysis type of results and of data at nodes call for; for a function one of seven function types, a known precision or a call that asks for double, two abscissas, and as many as ordinates unless they are evenly spaced). Otherwise an exception is raised. Whether a call succeeds does not depend on the file, on what the object knows, on the clock, or on other entries.", "quantifier": "every file and object, every list of dictionaries of the fifteen types (or unsupported types) of any length, any values except arrays or complex numbers in place of a single number and fractional numbers in place of a text (for functions: ordinates and abscissas that are arrays of floating point numbers), every mode, clock and value of force_double", "why_tests_cant": "Tests try a few good dictionaries; the exact border between accepted and refused runs through all dictionaries and all values.", "anchors": ["pyuff/datasets/dataset_15.py:36-58", "pyuff/datasets/dataset_18.py:45-75", "pyuff/datasets/dataset_151.py:47-79", "pyuff/datasets/dataset_164.py:47-67", "pyuff/datasets/dataset_1858.py:108-169", "pyuff/datasets/dataset_2400.py:46-80", "pyuff/datasets/dataset_2411.py:32-50", "pyuff/datasets/dataset_2429.py:105-150", "pyuff/datasets/dataset_82.py:46-76", "pyuff/datasets/dataset_2412.py:47-75", "pyuff/datasets/dataset_2420.py:52-76", "pyuff/datasets/dataset_2467.py:55-102", "pyuff/datasets/dataset_2414.py:544-707", "pyuff/datasets/dataset_55.py:351-455", "pyuff/datasets/dataset_58.py:827-1016", "pyuff/pyuff.py:284-322", "pyuff/pyuff.py:431-476"]}
{"id": "C69", "title": "A list is written dictionary by dictionary, each judged on its own", "statement": "Writing a list with write_sets is writing its beginning and then, in mode 'add', its end: the file, what the object knows, the dictionaries left to the caller and the outcome are the same. A call succeeds exactly when the mode is known, the list is not empty, and every dictionary would be written by a call of its own, to any other file, in any mode, at any other time and on any other machine; so the order of the list does not matter for that. When a call fails, the exception is that of the first dictionary that a call of its own would refuse; the ones before it are written, and the ones after it are neither looked at nor changed. Nothing depends on the time or the machine unless there is a header (151) or a binary function (58) in the list; these do depend on it.", "quantifier": "every file and object, every list of dictionaries of any length with any contents, every mode, force_double, byte order and clock", "why_tests_cant": "Tests write a few lists in one call; that no combination of dictionaries, earlier contents, times and machines has an influence is a statement about all lists and all states.", "anchors": ["pyuff/pyuff.py:284-322", "pyuff/pyuff.py:403-482", "pyuff/datasets/dataset_151.py:47-77", "pyuff/datasets/dataset_58.py:827-1016"]}
{"id": "C70", "title": "Entries that are dropped without an exception", "statement": "Some entries are used by some data-sets of a type and left out of others without an exception. Of complex data at nodes (55) the entries r4, r5 and r6 are never written: whatever they contain, the file and the outcome are the same (only whether they are present shows, in the declared number of values). Of an evenly spaced function (58) only the first two abscissas are used: the others, and how many there are, make no difference. With force_double the declared precision ord_data_type of a function may be anything or missing. The entry n_bytes of a function may be anything. Of data at nodes (55) and of results (2414) the entries that belong to another analysis type, or to another location of the data, make no difference; results at a location other than 1, 2 and 3 are written without an exception (a message is printed) and without any of their data, unless they are frequency responses. Of a frequency response only as many of x, y and z are used as it has values per node, and none if that number is not 1, 2 or 3. All this holds in any file, any mode, at any time and anywhere in a list. The conditions are needed: real components, abscissas of unevenly spaced functions, the first two abscissas and, without force_double, the declared precision do change the file.", "quantifier": "every file and object, every dictionary of the type with any other contents, every replaced value, every position in a list, every mode, force_double, byte order and clock", "why_tests_cant": "That a value has no influence is a statement about all its values and all surroundings; tests compare a few files and always give consistent entries.", "anchors": ["pyuff/datasets/dataset_55.py:361-450", "pyuff/datasets/dataset_58.py:878-960", "pyuff/datasets/dataset_2414.py:544-707"]}
