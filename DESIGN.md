# Formal model of ladisk/pyuff in Lean 4

## 1. What is modelled

The model is a set of total, computable Lean functions that mirror the Python functions branch by branch.
Exceptions are values (`Res α = Except Err α`).  A writer is a function `W α : Dict → WRes α`: it returns the text
written so far, the dictionary as the caller sees it afterwards (writers change it in place), and the result or the
exception.  So text written before an exception is kept, as in the code.

| layer | Lean module(s) | code |
|---|---|---|
| Python text and bytes: `str.split`, `strip`, `splitlines` (str and bytes), `int()`, `float()`, formatting with `%i %s %e` and `.0f` | `Verif/Py/Text.lean` | CPython semantics used by the code |
| UTF-8 encoding, decoding with `errors='replace'` | `Verif/Py/Utf8.lean` | `open(..)` in text mode, `bytes.decode` |
| IEEE-754 doubles as sign and 63-bit magnitude; rounding to and from decimal, sum, product, difference, `float32` to `float64`, `nan_to_num` | `Verif/Py/Float.lean` | CPython and numpy float semantics |
| dictionaries and dynamic values (numbers, strings, lists, arrays, nested dictionaries) | `Verif/Py/Val.lean` | `dict`, `list`, `np.ndarray` as used here |
| `_opt_fields`, `_parse_header_line`, `_write_record`, `check_dict_for_none` | `Verif/Model/Tools.lean` | `pyuff/tools.py` |
| delimiter scan of `refresh` | `Verif/Model/Scan.lean` | `pyuff/pyuff.py` |
| formatted lines | `Verif/Model/Row.lean` | the `fh.write('...' % (...))` statements |
| `_writeN` / `_extractN` for the 15 supported numbers | `Verif/Model/DSn.lean` | `pyuff/datasets/dataset_N.py` |
| `UFF` object: `refresh`, getters, `read_sets`, `write_sets`, `_read_set`, `_write_set` | `Verif/Model/Uff.lean` | `pyuff/pyuff.py` |
| histories of calls of several objects for one file | `Verif/Model/Session.lean` | `pyuff/pyuff.py` |
| reading loops pass by pass, with their line index | `Verif/Model/Loops.lean` | `pyuff/datasets/dataset_2429.py`, `dataset_2467.py`, `dataset_2414.py` |
| the `prepare_*` functions, `prepare_group`, `convert_dataset_2412_to_82` | `Verif/Model/Prepare.lean` | `pyuff/datasets/*.py`, `pyuff/tools.py` |
| writing where text mode turns LF into CR LF | `Verif/Model/Windows.lean` | `open(..)` in `pyuff/pyuff.py` and `dataset_58.py` |
| `write_sets` with the same dictionary object several times | `Verif/Model/Alias.lean` | `pyuff/pyuff.py:284-322` |
| `fix_58b` with `os.path.splitext` | `Verif/Model/Fix58b.lean` | `pyuff/datasets/dataset_58.py` |

A file is a `List UInt8`; the file system seen by one `UFF` object is `Option (List UInt8)` (absent or content).
Text is `List Char`.  Every definition of the model has a comment citing the lines it models.

Layers of the proof:

| directory | contents |
|---|---|
| `Verif/Py`, `Verif/Model` | the model; nothing else is trusted to describe the code |
| `Verif/Spec` | what a user would say: typed records of each data-set, when they are well formed, the dictionary given and the dictionary expected back, delimiters and data-sets of a byte string, nearest decimal and nearest double, misplaced delimiters |
| `Verif/Lemmas` | proofs |
| `Verif/Props` | the property theorems `Cnn_...`, each with a concrete case (`example`) meeting its hypotheses |
| `Verif/Axioms.lean` | fails the build when a property theorem uses a non-standard axiom |

### Simplifications

Inside the model a case that is not modelled gives the result `Err.unmodelled`, never a default.  The theorems about
successful runs therefore say nothing about those cases, and no theorem counts them as success.

* numpy: `int64` overflow of arrays, object arrays, arrays of strings, broadcasting of odd shapes, comparison of an array
  with `==`.  Numpy scalars are not distinguished from python numbers (this matters for `type(v) != int` in `prepare_*`).
* `int()` and `float()` skip the blanks CPython skips (not the separators 28-31, which `str.strip()` removes) and accept every
  decimal digit of Unicode 14, the version of python 3.11.  Python's limit of 4300 digits in `int()` is not modelled.
* Complex arithmetic `a + 1j*b` is modelled operation by operation on the parts (`cplxOf`), as numpy does it.
* Aliasing: `World.writeSets` takes the dictionaries to be distinct objects; `World.writeRefs` (`Model/Alias.lean`) does not, and
  C65_distinct and C65_alias relate the two. Lists shared between two dictionaries are not modelled (no writer changes a list in
  place).
* The clock (`time.strftime` in data-set 151) is a parameter: one date and time for each data-set written.
* `sys.byteorder` is a parameter.
* `Model/Uff.lean` writes line ends as on Linux; `Model/Windows.lean` has the variant for Windows (`fix_58b` is modelled on Linux
  only).
* The last handle opened by the writer of binary data-set 58 is never closed explicitly; the model assumes CPython, which
  closes it when it goes out of scope.
* Different names are different files in `fix_58b` (no links, no case-insensitive file systems).
* `while` loops over lines have a `fuel` argument, one per line.  Every pass consumes a line, so the fuel never runs out on
  the runs described by the theorems; headers with negative counts, for which the code may loop for ever, are `unmodelled`
  in the readers.  `Model/Loops.lean` models these loops pass by pass with their index, negative indices included, and C49
  proves that it agrees with the readers wherever these have a result.

### Not modelled (part of the trusted gap between model and code)

* operating-system errors (permissions, full disks except as "crash at any byte"), concurrency between processes,
  deprecation warnings, `get_structure_*` (they return documentation text),
  `print` and `warnings` output;
* python strings with lone surrogates (Lean `Char` excludes them);
* NaN payloads produced by parsing (`float('nan')` gives one canonical NaN);
* complex values where the format asks for an integer or a real number (python raises, numpy drops the imaginary part):
  `unmodelled`;
* a tuple as the only argument of `%`, which python unpacks (`'%2i' % (5,)`): `Val.list` stands for lists and tuples and is
  treated as a list there;
* numpy text arrays drop trailing NUL characters of their items, so a number followed by NUL characters is accepted by the
  parts of the readers of 55 and 2414 that go through `np.array` of texts; the model rejects it;
* what happens on unsupported hardware (numpy without IEEE doubles).

## 2. Trusted base

* The Lean 4.33.0 kernel, and the statement of each theorem.
* Axioms: every property theorem depends on at most `propext`, `Classical.choice` and `Quot.sound`.  No axiom is added;
  there is no `sorry`, `native_decide`, `bv_decide`, `implemented_by` or `unsafe`.  `Verif/Axioms.lean` collects the axioms
  of all theorems named `Verif.C<digit>...` and fails the build if there is any other.
* The correspondence between model and code is by reading: nothing in `/repo` was run.
* Mathlib is used for tactics and for lemmas on lists and numbers only.

## 3. Method

* Framing: `tags (a ++ b) = tags a ++ shift (tags b)` when `a` is empty or ends in a newline.  Every ASCII writer
  produces a sequence of newline-terminated lines of which exactly the first and the last are delimiters.  From this,
  by induction over the list of writes, a file written by any history has exactly the expected data-sets.
* Round trip of one data-set: the output of the writer is computed as a list of lines from a typed record, the
  reader is evaluated on those lines using general lemmas (fixed-width cutting, splitting at blanks, printing and parsing
  integers and floats), by induction over the number of nodes, points, elements or groups.
* Numbers: `float('%.{p}e' % x)` is specified independently as "nearest double to the nearest (p+1)-digit decimal";
  the identity for 17 digits, the error bound and idempotence are proved over all doubles by integer inequalities.
* A property that is false of the code keeps its full statement in `properties.jsonl`; the model proves the negation
  with a concrete witness (evaluated by the kernel) and a `_partial` theorem with the hypothesis that excludes the witness.
* Wrong programs: `seeded/LOG.jsonl` lists edits of the model in a scratch copy, the claim each one breaks, and the theorems
  that failed.  Some edits repair the code; then the negation theorems must fail.

## 4. Where the code disagrees with the property expected

Each item is a theorem about the model, so also a bug report for the code (if the model is faithful).

| theorem | finding |
|---|---|
| `C04_binary` | writing a binary data-set 58 in mode 'overwrite' leaves only the closing delimiter in the file |
| `C07_negation` | `read_sets()` on an object created before its file existed returns nothing the first time and everything the second time |
| `C09_negation`, `C09_lost` | a failed write leaves an opening delimiter behind, and the next data-set written is lost |
| `C10_stale`, `C10_counterexample` | after the file has lost its data-sets, the object still reports the old ones |
| `C11_negation`, `C11_always_ascii` | `get_set_formats` never reports a binary data-set (`int` has no `lower`, and the exception is swallowed) |
| `C14_negation` | writing data-set 58 changes `ord_data_type`, `n_bytes` and `abscissa_min` in the caller's dictionary |
| `C17_delimiter` | a name in data-set 18 that looks like a delimiter splits the data-set |
| `C19_negation` | complex data with `r4`, `r5`, `r6` (data-set 55) are written but cannot be read |
| `C20_single` | data-set 58 with an abscissa of one point cannot be written |
| `C22_single`, `C22_single_any`, `C22_negation_single` | binary single precision: doubles are written, singles are read; whatever the data, twice as many points come back as the header announces |
| `C22_iff`, `C22_negation_payload` | a binary payload in which a delimiter begins (six bytes and a line end) splits the data-set, so that fewer points are read; `C22_iff` shows that all other payloads come back |
| `C23_negation` | data-set 82 loses nodes when neighbours are equal and the number of runs is a multiple of eight |
| `C24_negation_prepare` | `prepare_151` stores `date_db_written`, which the writer ignores (it uses `date_file_written`) |
| `C26_negation` | data-set 1858 writes columns of 10 characters and reads columns of 12 |
| `C27_negation`, `C28_negation`, `C59_2400`, `C59_2411`, `C59_164` | -1 as last field of a line (2400, 2411, 164) reads as delimiter; the `C59_…_iff` theorems give the exact condition, `C28_colours` the number of data-sets nodes of colour -1 become |
| `C29_negation_beam`, `C29_negation_prepare` | data-set 2412: beams 21 to 24 are written without the record the reader expects; the dictionary of `prepare_2412` writes no elements |
| `C30_negation_*` | data-set 2414: negative numbers in records 12 and 13 shift the columns, location 5 has no closing delimiter (`C30_location5`: for every file and every such dictionary, none of the data-sets appended afterwards is found), data without nodes cannot be read (`C30_empty`: whatever the header and the file), rows of more than six values swallow the next element, frequency data of a type other than 5 are not returned |
| `C32_negation`, `C32_negation_two`, `C32_negation_again` | data-set 2429: the last incomplete line is written from wrong entities; groups of two, three and seven entities are refused (`C32_refused`, `C32_counts`); a group without entities is read as no group (`C32_empty`); `C32_iff` says which groups come back; what is read cannot be written again (`C41_groups`, for every file) |
| `C35_negation_subnormal` | repeated saving of subnormal numbers changes the text (the value stays, `C35_cycles`) |
| `C37_negation_*` | `fix_58b` writes the last digit twice when the file has no final line end, is not idempotent, damages data-sets with lines `-1` inside or ending with CR |
| `C38_negation` | `convert_dataset_2412_to_82` raises for two data-sets with quads |
| `C41_negation_*` | saving again what was read: `-0.0-0.0j` loses its signs one after the other; a response of one point cannot be written again; the increment of an even abscissa can double; a node dropped from data-set 82 changes `n_nodes`; file type `-01` (151), long names (18) and names with many blanks (2420) become delimiters; frequency data not read (2414) cannot be written; what was read of a data-set 58 with `header_only=True` is refused, and in mode 'overwrite' the file is then empty (`C41_header`) |
| `C42_lost`, `C42_negation*` | appending to a file that ends with `    -1` without a line feed reports success but loses every data-set that is added; the last old data-set gets a delimiter at its end (a data-set 2412 or 2467 cannot be read any more) and the other new ones appear as empty data-sets of type 0 |
| `C10_gone` | when the file has been deleted by somebody else, `refresh` returns `False` and the object goes on reporting the data-sets it knew |
| `C43_negation_binary`, `C43_negation_55` | converting line ends to CR LF damages binary values, as expected; but also a data-set 55 with narrow columns reads differently, because the line end fills up the last cell |
| `C45_overwritten` | an object does not notice that another object (or program) has overwritten its file: it reads bytes at the old places and reports data-sets that do not exist any more |
| `C46_negation_*` | data-set 58: a last line filled up with blanks is accepted in single precision only; no values at all in double precision only; `num_pts`, `n_bytes` and `fp_format` are never compared with the values |
| `C47_negation_glued`, `C47_negation_cut`, `C47_negation_lines` | data-set 15: lines are joined without a separator, so that lines beginning in the first column are misread; a node that is cut off gives arrays of different lengths; data-set 2412: elements with more than eight nodes, which the standard writes on several lines, are misread without an error |
| `C48_negation_saved` | data-set 58: function types other than 0, 1, 2, 3, 4, 6, 9 are read but refused when writing (`prepare_58` accepts 0 to 27) |
| `C52_lost_2429`, `C52_negation_*` | data-set 2429: a group without entities at the end is lost; a data-set that ends before all announced entities is accepted, so that the number of entities and the arrays disagree |
| `C53_negation_*` | data-set 18: lines are joined without a separator; first lines beginning in the first column are misread without an error, coordinate lines filled up with blanks cannot be read |
| `C54_ignored`, `C54_negation_*` | data-set 2414: data at points and real frequency responses are silently dropped; more than one line of values for a node cannot be read; a frequency response on elements is misread; more nodes than lines of values are accepted |
| `C55_negation_*` | data-set 55: lines of values filled up with blanks cannot be read; one value per node is dealt to six directions; a data-set that ends after record 6 is accepted as empty |
| `C60_lost`, `C60_negation_shifted` | a file, group or record separator (or any other line break) in a name or description moves all later records of a header by one line, without an error |
| `C61_negation`, `C61_negation_nodes` | a node or function that is cut off in the file is read without an error: the arrays returned have different lengths (one abscissa more than ordinates, two node numbers but one coordinate) |
| `C64_negation`, `C64_negation_even` | three coordinates for two nodes are written without an error and the third is lost; of the abscissas of an evenly spaced function only the first two are looked at, so that abscissas that are not evenly spaced, or too many, are silently replaced |
| `C68_defaults_2420`, `C68_defaults_2467` | the default lists `CS_types` and `CS_colors` of a 2420 have one item, so without them only exactly one coordinate system can be written; the defaults of a 2467 are set beside the groups and not in them, so a group without the numbers of active sets is refused |
| `C68_results_array`, `C68_results_dropped` | the node numbers of results (2414) must be a NumPy array: a list of the same numbers is refused; results at a location other than 1, 2, 3 are written without their data, which are not even looked at |
| `C68_components` | data at nodes (55): components 4 to 6 are written only when the first component is real; when it is complex they are not looked at (and are lost without notice) |
| `C68_even_any`, `C68_functions` | an evenly spaced function (58) is written with any number of ordinates, whatever the length of its abscissa (at least two); with `force_double` a declared data type that makes no sense is accepted and replaced |
| `C68_odd` | what is accepted is not what makes sense: a node number that is not a number is written by data-set 15 (and refused by 2411); in a 2429 five entities with four tags are written, because the last incomplete line uses the places 0, 4, 8 |
| `C55_negation_surplus` | data at nodes (55): a seventh number in a line of six is read without an error; it is combined with the imaginary part of the first value, because NumPy uses a single value with every element of another array |
| `C67_negation` | data-set 2412: groups of elements are written in the order in which the dictionary has them, so two dictionaries that are equal for Python can give different files; the `units_description` of a 55, for which a default is set, is never written |
| `C70_negation` | complex data at nodes (55): the fourth to sixth component are accepted, announced in the header line as six values per node, and never written; evenly spaced functions (58): all abscissas but the first two are dropped, even if they are not evenly spaced |
| `C70_negation_results` | results (2414) at a location other than 1, 2 and 3 (for example 4, layers of shells) are written without an exception, but their data are left out (a message is printed) |
| `C70_negation_response` | frequency responses (2414) with another number of values per node than 1, 2 and 3 (for example 6) are written without an exception and without any values |
| `C66_negation`, `C66_complex`, `C66_real`, `C66_imaginary`, `C66_unreadable` | data-set 58 with `force_double=False`: an `ord_data_type` that does not fit the values (complex values saved over a real function) is not noticed; what is read has twice or half as many points, has lost its imaginary parts, or cannot be read |
| `C56_negation_*`, `C56_dropped` | data-set 58: binary values of an unknown `ord_data_type` are dropped, the entries `x` and `data` are missing; with an odd number of numbers for complex values `x` is longer than `data` |
| `C57_negation_fortran` | numbers with the exponent letter `D`, as Fortran programs write them, are understood in data-sets 164, 2411 and 2420 only; all other readers raise |
| `C49_negation_2429`, `_2467`, `_2414` | a negative count in a group or element line (for instance −8 entities in a 2429) makes the reader loop for ever, its list growing |
| `C39_negation`, `C39_negation_write` | `prepare_group` loses temperature and contact set numbers; the dictionary of `prepare_2429` cannot be written |

## 5. Properties and theorems

Status "partial" means that the property as stated is false of the code (a negation is among the theorems) or holds under a
restriction named in the note in `MANIFEST.json`.

| id | property | status | theorems |
|---|---|---|---|
| C01 | Data-set discovery finds exactly the delimiter pairs | proved | `C01_delims`, `C01_count`, `C01_extent`, `C01_types`, `C01_content`, `C01_refresh` |
| C02 | Appending never disturbs earlier data-sets | proved | `C02_append`, `C02_object` |
| C03 | Counting: writing N data-sets yields N more data-sets of the right types, in order | proved | `C03_counting` |
| C04 | Overwrite discards the old content and nothing else | partial | `C04_forgets`, `C04_overwrite_partial`, `C04_binary` |
| C05 | Whole-file round trip for mixed data-set lists | proved | `C05_append`, `C05_roundtrip`, `C05_history` |
| C06 | read_sets selection semantics | proved | `C06_one`, `C06_many`, `C06_all`, `C06_entry`, `C06_range` |
| C07 | Reading never changes anything | partial | `C07_file`, `C07_refresh`, `C07_repeat_partial`, `C07_counterexample`, `C07_negation` |
| C08 | Crash during append keeps earlier data-sets readable | proved | `C08_crash`, `C08_batch` |
| C09 | A failed write leaves the file usable | partial | `C09_contract`, `C09_overwrite`, `C09_negation`, `C09_lost` |
| C10 | File info reported by the object is a function of the file | partial | `C10_info_partial`, `C10_new`, `C10_stale`, `C10_gone`, `C10_counterexample` |
| C11 | get_set_formats distinguishes binary data-sets | partial | `C11_always_ascii`, `C11_formats_partial`, `C11_negation` |
| C12 | Unsupported data-set types are ignored | proved | `C12_write`, `C12_list`, `C12_read` |
| C13 | Invalid calls raise and leave the file alone | proved | `C13_empty`, `C13_mode`, `C13_read`, `C13_type` |
| C14 | Optional fields: defaults fill only what is missing | partial | `C14_write`, `C14_table`, `C14_write_data`, `C14_write_58`, `C14_write_55`, `C14_write_any`, `C14_sets`, `C14_negation`, `C14_prepare`, `C14_prepare_full`, `C14_prepare_accepts`, `C14_prepare_none`, `C14_prepare_refuses` |
| C15 | Fixed-width header parsing | proved | `C15_parse`, `C15_keys`, `C15_mandatory` |
| C16 | Round trip of data-set 15 (nodes) | proved | `C16_roundtrip` |
| C17 | Round trip of data-set 18 (coordinate systems) | proved | `C17_roundtrip`, `C17_delimiter` |
| C18 | Round trip of data-set 55 (data at nodes, real data) | proved | `C18_roundtrip` |
| C19 | Round trip of data-set 55 (data at nodes, complex data) | partial | `C19_lost`, `C19_iff`, `C19_roundtrip_partial`, `C19_negation` |
| C20 | Round trip of data-set 58 (ASCII, double precision) | proved | `C20_roundtrip`, `C20_single` |
| C21 | Round trip of data-set 58 (ASCII, single precision) | proved | `C21_roundtrip` |
| C22 | Round trip of data-set 58b (binary) | partial | `C22_roundtrip_partial`, `C22_negation_single`, `C22_negation_payload`, `C22_iff`, `C22_single`, `C22_single_any` |
| C23 | Round trip of data-set 82 (trace lines) | partial | `C23_stored`, `C23_roundtrip_partial`, `C23_negation` |
| C24 | Round trip of data-set 151 (header) | proved | `C24_negation_prepare`, `C24_roundtrip` |
| C25 | Round trip of data-set 164 (units) | proved | `C25_roundtrip` |
| C26 | Round trip of data-set 1858 (58 qualifiers) | partial | `C26_iff`, `C26_roundtrip_partial`, `C26_negation` |
| C27 | Round trip of data-set 2400 (model header) | partial | `C27_roundtrip_partial`, `C27_negation` |
| C28 | Round trip of data-set 2411 (nodes, double precision) | partial | `C28_colours`, `C28_roundtrip_partial`, `C28_negation` |
| C29 | Round trip of data-set 2412 (elements) | partial | `C29_iff`, `C29_roundtrip_partial`, `C29_negation_beam`, `C29_negation_prepare` |
| C30 | Round trip of data-set 2414 (analysis data) | partial | `C30_empty`, `C30_columns`, `C30_roundtrip_partial`, `C30_freq`, `C30_negation_dtype`, `C30_negation_negative`, `C30_negation_freq`, `C30_negation_last`, `C30_negation_location5`, `C30_negation_empty`, `C30_negation_wide`, `C30_location5` |
| C31 | Round trip of data-set 2420 (coordinate systems) | proved | `C31_roundtrip` |
| C32 | Round trip of data-set 2429 (permanent groups) | partial | `C32_refused`, `C32_counts`, `C32_empty`, `C32_iff`, `C32_stored`, `C32_roundtrip_partial`, `C32_negation`, `C32_negation_two`, `C32_negation_again` |
| C33 | Round trip of data-set 2467 (groups) | proved | `C33_roundtrip` |
| C34 | Seventeen-digit fields are bit-exact | proved | `C34_exact`, `C34_sharp` |
| C35 | Re-saving does not drift | proved | `C35_rounding`, `C35_error`, `C35_stable`, `C35_finite`, `C35_cycles`, `C35_negation_subnormal` |
| C36 | NaN and infinities in data never reach the file | proved | `C36_total`, `C36_clean` |
| C37 | fix_58b only moves misplaced end delimiters | partial | `C37_missing`, `C37_input`, `C37_target`, `C37_name`, `C37_visible`, `C37_visible_eol`, `C37_negation_newline`, `C37_verbatim`, `C37_repairs_partial`, `C37_negation_cr`, `C37_sets_partial`, `C37_restores_partial`, `C37_twice_partial`, `C37_negation_twice`, `C37_negation_binary`, `C37_negation_ids` |
| C38 | convert_dataset_2412_to_82 draws every quad as a closed loop | partial | `C38_convert_partial`, `C38_convert_none`, `C38_negation` |
| C39 | prepare_group stores what it is given | partial | `C39_group`, `C39_group_partial`, `C39_negation`, `C39_group_2467`, `C39_refused`, `C39_negation_write` |
| C40 | header_only read agrees with the full read | proved | `C40_header` |
| C41 | Saving again what was read changes nothing | partial | `C41_again`, `C41_from_zero`, `C41_binary`, `C41_negation_zeros`, `C41_negation_point`, `C41_negation_step`, `C41_negation_trace`, `C41_negation_type`, `C41_negation_part`, `C41_negation_name`, `C41_negation_freq`, `C41_groups`, `C41_header`, `C41_header_any` |
| C42 | Adding to a file whose last line has no line end | partial | `C42_keeps`, `C42_lost`, `C42_negation`, `C42_negation_blanks` |
| C43 | CR LF line ends do not matter to reading | partial | `C43_sets`, `C43_types`, `C43_read_partial`, `C43_written`, `C43_negation_binary`, `C43_negation_55` |
| C44 | Writing on Windows | proved | `C44_text`, `C44_counting`, `C44_roundtrip`, `C44_append` |
| C45 | Objects behave as views of a list of data-sets | partial | `C45_refinement_partial`, `C45_overwritten` |
| C46 | Values of data-set 58 from other programs | partial | `C46_ascii_partial`, `C46_error`, `C46_binary`, `C46_negation_padded`, `C46_negation_empty`, `C46_negation_count` |
| C47 | Nodes, trace lines and elements from other programs | partial | `C47_2411`, `C47_error`, `C47_15_partial`, `C47_82`, `C47_2412_partial`, `C47_negation_glued`, `C47_negation_cut`, `C47_negation_lines` |
| C48 | Entries that must be present | partial | `C48_missing`, `C48_items`, `C48_when`, `C48_func`, `C48_analysis`, `C48_enough`, `C48_negation_saved` |
| C49 | Reading loops end or never end | partial | `C49_dichotomy_2429`, `C49_dichotomy_2467`, `C49_dichotomy_2414`, `C49_same_2429`, `C49_same_2467`, `C49_same_2414`, `C49_ends_2429_partial`, `C49_ends_2467_partial`, `C49_ends_2414_partial`, `C49_hangs_2429`, `C49_hangs_2467`, `C49_hangs_2414`, `C49_negation_2429`, `C49_negation_2467`, `C49_negation_2414` |
| C50 | Data-sets are independent of the rest of the file | proved | `C50_between`, `C50_inside`, `C50_select`, `C50_join` |
| C51 | Headers, units and qualifiers of any program are read by columns | proved | `C51_151`, `C51_164`, `C51_1858`, `C51_2400` |
| C52 | Groups of any program are read with all entities | partial | `C52_2429_partial`, `C52_lost_2429`, `C52_2467`, `C52_negation_last`, `C52_negation_short` |
| C53 | Coordinate systems of any program are read | partial | `C53_18_partial`, `C53_2420`, `C53_negation_padded`, `C53_negation_glued` |
| C54 | Results of any program are read | partial | `C54_nodes_partial`, `C54_elements_partial`, `C54_elemNodes`, `C54_freq`, `C54_ignored`, `C54_error`, `C54_negation_points`, `C54_negation_lines`, `C54_negation_cut`, `C54_negation_elements`, `C54_negation_backwards` |
| C55 | Data at nodes of any program are read | partial | `C55_real3_partial`, `C55_real6_partial`, `C55_cplx_partial`, `C55_unsupported`, `C55_error`, `C55_negation_padded`, `C55_negation_scalar`, `C55_negation_short`, `C55_negation_surplus` |
| C56 | Functions at nodal degrees of freedom of any program are read | partial | `C56_header`, `C56_error`, `C56_ascii_partial`, `C56_binary`, `C56_unsupported`, `C56_dropped`, `C56_negation_dropped`, `C56_negation_odd` |
| C57 | Which texts are numbers, and which numbers they are | proved | `C57_int`, `C57_bytes`, `C57_float`, `C57_negation_fortran`, `C57_fortran` |
| C58 | Every data-set written is framed, every data-set read has its type and entries | proved | `C58_written`, `C58_failed`, `C58_overwritten`, `C58_counted`, `C58_typed`, `C58_entries`, `C58_binary`, `C58_types` |
| C59 | Lines that look like a delimiter cut a data-set | proved | `C59_new`, `C59_lost`, `C59_2411`, `C59_2411_iff`, `C59_2400`, `C59_2400_iff`, `C59_164`, `C59_164_iff` |
| C60 | Texts that are read are on one line and trimmed | proved | `C60_texts`, `C60_lost`, `C60_negation_shifted` |
| C61 | The arrays that are read belong together | proved | `C61_nodes`, `C61_systems`, `C61_mask`, `C61_elements`, `C61_groups`, `C61_function`, `C61_data`, `C61_results`, `C61_negation`, `C61_negation_nodes` |
| C62 | No history of appending calls destroys a data-set; overwriting repairs the file | proved | `C62_kept`, `C62_repaired` |
| C63 | Entries written as numbers must be numbers | proved | `C63_header`, `C63_when`, `C63_items` |
| C64 | Missing values are refused, surplus values are ignored | proved | `C64_short`, `C64_2420`, `C64_uneven`, `C64_extra`, `C64_even`, `C64_few`, `C64_negation`, `C64_negation_even` |
| C65 | Writing a dictionary again writes the same | partial | `C65_again`, `C65_alias`, `C65_distinct`, `C65_negation` |
| C66 | The declared type of an ordinate is believed, not checked | partial | `C66_complex`, `C66_real`, `C66_imaginary`, `C66_unreadable`, `C66_forced`, `C66_negation`, `C66_other` |
| C67 | Only the entries a writer uses matter | proved | `C67_used`, `C67_extra`, `C67_order`, `C67_negation`, `C67_needed` |
| C68 | Exactly which dictionaries are written | proved | `C68_accept`, `C68_refused`, `C68_odd`, `C68_defaults_2420`, `C68_defaults_2467`, `C68_results_array`, `C68_results_dropped`, `C68_components`, `C68_function`, `C68_double`, `C68_even_any`, `C68_functions` |
| C69 | A list is written dictionary by dictionary, each judged on its own | proved | `C69_split`, `C69_stop`, `C69_alone`, `C69_each`, `C69_any_order`, `C69_first`, `C69_anywhere`, `C69_negation` |
| C70 | Entries that are dropped without an exception | proved | `C70_components`, `C70_function`, `C70_declared`, `C70_bytes`, `C70_negation`, `C70_needed`, `C70_analysis`, `C70_results`, `C70_response`, `C70_negation_response`, `C70_negation_results`, `C70_needed_layout` |
