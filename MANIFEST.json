{
 "claims": [
  {
   "property": "C01",
   "status": "proved",
   "theorems": [
    "Verif.C01_delims",
    "Verif.C01_count",
    "Verif.C01_extent",
    "Verif.C01_types",
    "Verif.C01_content",
    "Verif.C01_refresh"
   ],
   "note": ""
  },
  {
   "property": "C02",
   "status": "proved",
   "theorems": [
    "Verif.C02_append",
    "Verif.C02_object"
   ],
   "note": ""
  },
  {
   "property": "C03",
   "status": "proved",
   "theorems": [
    "Verif.C03_counting"
   ],
   "note": ""
  },
  {
   "property": "C04",
   "status": "partial",
   "theorems": [
    "Verif.C04_forgets",
    "Verif.C04_overwrite_partial",
    "Verif.C04_binary"
   ],
   "note": "Overwriting is proved for every first data-set except binary 58, for which C04_binary proves that the code destroys the file content."
  },
  {
   "property": "C05",
   "status": "proved",
   "theorems": [
    "Verif.C05_append",
    "Verif.C05_roundtrip",
    "Verif.C05_history"
   ],
   "note": ""
  },
  {
   "property": "C06",
   "status": "proved",
   "theorems": [
    "Verif.C06_one",
    "Verif.C06_many",
    "Verif.C06_all",
    "Verif.C06_entry",
    "Verif.C06_range"
   ],
   "note": ""
  },
  {
   "property": "C07",
   "status": "partial",
   "theorems": [
    "Verif.C07_file",
    "Verif.C07_refresh",
    "Verif.C07_repeat_partial",
    "Verif.C07_counterexample",
    "Verif.C07_negation"
   ],
   "note": "False of the code for an object created before its file existed (C07_negation); proved otherwise."
  },
  {
   "property": "C08",
   "status": "proved",
   "theorems": [
    "Verif.C08_crash",
    "Verif.C08_batch"
   ],
   "note": ""
  },
  {
   "property": "C09",
   "status": "partial",
   "theorems": [
    "Verif.C09_contract",
    "Verif.C09_overwrite",
    "Verif.C09_negation",
    "Verif.C09_lost"
   ],
   "note": "False of the code: C09_negation and C09_lost show the dangling delimiter and the loss of the following data-set; C09_contract states exactly what a failed write leaves."
  },
  {
   "property": "C10",
   "status": "partial",
   "theorems": [
    "Verif.C10_info_partial",
    "Verif.C10_new",
    "Verif.C10_stale",
    "Verif.C10_gone",
    "Verif.C10_counterexample"
   ],
   "note": "False of the code (C10_stale, C10_counterexample): get_n_sets uses stale information; proved for objects in step with the file."
  },
  {
   "property": "C11",
   "status": "partial",
   "theorems": [
    "Verif.C11_always_ascii",
    "Verif.C11_formats_partial",
    "Verif.C11_negation"
   ],
   "note": "False of the code (C11_negation): get_set_formats never returns 1; proved for ASCII data-sets."
  },
  {
   "property": "C12",
   "status": "proved",
   "theorems": [
    "Verif.C12_write",
    "Verif.C12_list",
    "Verif.C12_read"
   ],
   "note": ""
  },
  {
   "property": "C13",
   "status": "proved",
   "theorems": [
    "Verif.C13_empty",
    "Verif.C13_mode",
    "Verif.C13_read",
    "Verif.C13_type"
   ],
   "note": ""
  },
  {
   "property": "C14",
   "status": "partial",
   "theorems": [
    "Verif.C14_write",
    "Verif.C14_table",
    "Verif.C14_write_data",
    "Verif.C14_write_58",
    "Verif.C14_write_55",
    "Verif.C14_write_any",
    "Verif.C14_sets",
    "Verif.C14_negation",
    "Verif.C14_prepare",
    "Verif.C14_prepare_full",
    "Verif.C14_prepare_accepts",
    "Verif.C14_prepare_none",
    "Verif.C14_prepare_refuses"
   ],
   "note": "C14_write, C14_table and C14_sets give the exact dictionary after a successful write for every type; C14_write_any covers failed writes. Data-set 58 overwrites three keys whatever the caller gave (C14_negation, exact in C14_write_58), data-set 55 makes two keys complex (C14_write_55). The prepare_* functions: C14_prepare*."
  },
  {
   "property": "C15",
   "status": "proved",
   "theorems": [
    "Verif.C15_parse",
    "Verif.C15_keys",
    "Verif.C15_mandatory"
   ],
   "note": ""
  },
  {
   "property": "C16",
   "status": "proved",
   "theorems": [
    "Verif.C16_roundtrip"
   ],
   "note": ""
  },
  {
   "property": "C17",
   "status": "proved",
   "theorems": [
    "Verif.C17_roundtrip",
    "Verif.C17_delimiter"
   ],
   "note": ""
  },
  {
   "property": "C18",
   "status": "proved",
   "theorems": [
    "Verif.C18_roundtrip"
   ],
   "note": ""
  },
  {
   "property": "C19",
   "status": "partial",
   "theorems": [
    "Verif.C19_lost",
    "Verif.C19_iff",
    "Verif.C19_roundtrip_partial",
    "Verif.C19_negation"
   ],
   "note": "Three complex values per node are proved; with r4, r5, r6 the file cannot be read (C19_negation), whatever they hold (C19_lost): the exact condition is C19_iff."
  },
  {
   "property": "C20",
   "status": "proved",
   "theorems": [
    "Verif.C20_roundtrip",
    "Verif.C20_single"
   ],
   "note": ""
  },
  {
   "property": "C21",
   "status": "proved",
   "theorems": [
    "Verif.C21_roundtrip"
   ],
   "note": ""
  },
  {
   "property": "C22",
   "status": "partial",
   "theorems": [
    "Verif.C22_roundtrip_partial",
    "Verif.C22_negation_single",
    "Verif.C22_negation_payload",
    "Verif.C22_iff",
    "Verif.C22_single",
    "Verif.C22_single_any"
   ],
   "note": "Proved for double precision, mode 'add', data without the delimiter bytes; the other cases are false of the code: single precision is lost for every function (C22_single, C22_single_any, example C22_negation_single), data that contain a delimiter (C22_iff: exactly the data in which no delimiter begins come back; example C22_negation_payload), mode 'overwrite' (C04_binary)."
  },
  {
   "property": "C23",
   "status": "partial",
   "theorems": [
    "Verif.C23_stored",
    "Verif.C23_roundtrip_partial",
    "Verif.C23_negation"
   ],
   "note": "C23_stored gives the exact behaviour for every node list; C23_negation proves that nodes are lost whenever the number of runs is a multiple of 8 and some neighbours are equal."
  },
  {
   "property": "C24",
   "status": "proved",
   "theorems": [
    "Verif.C24_negation_prepare",
    "Verif.C24_roundtrip"
   ],
   "note": ""
  },
  {
   "property": "C25",
   "status": "proved",
   "theorems": [
    "Verif.C25_roundtrip"
   ],
   "note": ""
  },
  {
   "property": "C26",
   "status": "partial",
   "theorems": [
    "Verif.C26_iff",
    "Verif.C26_roundtrip_partial",
    "Verif.C26_negation"
   ],
   "note": "Proved for values that fit the columns where the reader looks; C26_negation: octave_format with nine digits cannot be read. The exact condition is C26_iff."
  },
  {
   "property": "C27",
   "status": "partial",
   "theorems": [
    "Verif.C27_roundtrip_partial",
    "Verif.C27_negation"
   ],
   "note": "Proved when the integers ending a line are not -1; C27_negation otherwise."
  },
  {
   "property": "C28",
   "status": "partial",
   "theorems": [
    "Verif.C28_colours",
    "Verif.C28_roundtrip_partial",
    "Verif.C28_negation"
   ],
   "note": "Proved when no colour is -1; C28_negation otherwise. C59_2411_iff: exactly then; C28_colours: how many data-sets the nodes become when colours are -1."
  },
  {
   "property": "C29",
   "status": "partial",
   "theorems": [
    "Verif.C29_iff",
    "Verif.C29_roundtrip_partial",
    "Verif.C29_negation_beam",
    "Verif.C29_negation_prepare"
   ],
   "note": "Proved for all descriptors except 21 to 24; C29_negation_beam and C29_negation_prepare show the failures. The exact condition on the descriptors is C29_iff."
  },
  {
   "property": "C30",
   "status": "partial",
   "theorems": [
    "Verif.C30_empty",
    "Verif.C30_columns",
    "Verif.C30_roundtrip_partial",
    "Verif.C30_freq",
    "Verif.C30_negation_dtype",
    "Verif.C30_negation_negative",
    "Verif.C30_negation_freq",
    "Verif.C30_negation_last",
    "Verif.C30_negation_location5",
    "Verif.C30_negation_empty",
    "Verif.C30_negation_wide",
    "Verif.C30_location5"
   ],
   "note": "Proved for every number of nodes and elements at all locations; C30_negation_* show what is missing: negative numbers in records 12 and 13, location 5, data without nodes, rows of more than six values, frequency data of a type other than 5. C30_location5 states the consequence of location 5 for every file and every such dictionary: the call succeeds, the data-sets are unchanged, and none of the data-sets appended afterwards is found; C30_empty states that data at no node or on no element are written and never read."
  },
  {
   "property": "C31",
   "status": "proved",
   "theorems": [
    "Verif.C31_roundtrip"
   ],
   "note": ""
  },
  {
   "property": "C32",
   "status": "partial",
   "theorems": [
    "Verif.C32_refused",
    "Verif.C32_counts",
    "Verif.C32_empty",
    "Verif.C32_iff",
    "Verif.C32_stored",
    "Verif.C32_roundtrip_partial",
    "Verif.C32_negation",
    "Verif.C32_negation_two",
    "Verif.C32_negation_again"
   ],
   "note": "C32_stored gives the exact behaviour for every number of entities the writer handles; all entities come back for multiples of four and for one; C32_negation* show the failures; C32_refused and C32_counts say that exactly the groups of two, three and seven entities are refused, C32_empty that a group without entities is written and read as no group, C32_iff exactly which groups come back."
  },
  {
   "property": "C33",
   "status": "proved",
   "theorems": [
    "Verif.C33_roundtrip"
   ],
   "note": ""
  },
  {
   "property": "C34",
   "status": "proved",
   "theorems": [
    "Verif.C34_exact",
    "Verif.C34_sharp"
   ],
   "note": ""
  },
  {
   "property": "C35",
   "status": "proved",
   "theorems": [
    "Verif.C35_rounding",
    "Verif.C35_error",
    "Verif.C35_stable",
    "Verif.C35_finite",
    "Verif.C35_cycles",
    "Verif.C35_negation_subnormal"
   ],
   "note": "The value is that of the first save for all finite doubles (C35_cycles); the text too for normal doubles (C35_stable), but not for subnormal ones (C35_negation_subnormal)."
  },
  {
   "property": "C36",
   "status": "proved",
   "theorems": [
    "Verif.C36_total",
    "Verif.C36_clean"
   ],
   "note": ""
  },
  {
   "property": "C37",
   "status": "partial",
   "theorems": [
    "Verif.C37_missing",
    "Verif.C37_input",
    "Verif.C37_target",
    "Verif.C37_name",
    "Verif.C37_visible",
    "Verif.C37_visible_eol",
    "Verif.C37_negation_newline",
    "Verif.C37_verbatim",
    "Verif.C37_repairs_partial",
    "Verif.C37_negation_cr",
    "Verif.C37_sets_partial",
    "Verif.C37_restores_partial",
    "Verif.C37_twice_partial",
    "Verif.C37_negation_twice",
    "Verif.C37_negation_binary",
    "Verif.C37_negation_ids"
   ],
   "note": "The source file is never changed, visible bytes are kept, files without misplaced delimiters are copied, and files of data-sets are repaired exactly; false when a data-set ends with CR (C37_negation_cr, C37_negation_binary), has lines -1 inside (C37_negation_ids), the last line has no line end (C37_negation_newline), or a blank line precedes the delimiter and the repair is run twice (C37_negation_twice)."
  },
  {
   "property": "C38",
   "status": "partial",
   "theorems": [
    "Verif.C38_convert_partial",
    "Verif.C38_convert_none",
    "Verif.C38_negation"
   ],
   "note": "Proved when at most one data-set contains quads; C38_negation shows the exception otherwise."
  },
  {
   "property": "C39",
   "status": "partial",
   "theorems": [
    "Verif.C39_group",
    "Verif.C39_group_partial",
    "Verif.C39_negation",
    "Verif.C39_group_2467",
    "Verif.C39_refused",
    "Verif.C39_negation_write"
   ],
   "note": "C39_group gives the exact result; C39_negation shows that temperature and contact numbers are lost."
  },
  {
   "property": "C40",
   "status": "proved",
   "theorems": [
    "Verif.C40_header"
   ],
   "note": ""
  },
  {
   "property": "C41",
   "status": "partial",
   "theorems": [
    "Verif.C41_again",
    "Verif.C41_from_zero",
    "Verif.C41_binary",
    "Verif.C41_negation_zeros",
    "Verif.C41_negation_point",
    "Verif.C41_negation_step",
    "Verif.C41_negation_trace",
    "Verif.C41_negation_type",
    "Verif.C41_negation_part",
    "Verif.C41_negation_name",
    "Verif.C41_negation_freq",
    "Verif.C41_groups",
    "Verif.C41_header",
    "Verif.C41_header_any"
   ],
   "note": "C41_again holds for lists of lasting data-sets of all types but 2429 (Spec/Again.lean states the condition for each type); C41_from_zero and C41_binary say when a data-set 58 is lasting; C41_groups: what is read of a data-set 2429, from whatever file, is never written again; C41_header: what is read of a data-set 58 with header_only=True is refused too, and in mode overwrite the file is left empty (C41_header_any: anywhere in a list it is refused); C41_negation_* and C32_negation_again show what goes wrong otherwise."
  },
  {
   "property": "C42",
   "status": "partial",
   "theorems": [
    "Verif.C42_keeps",
    "Verif.C42_lost",
    "Verif.C42_negation",
    "Verif.C42_negation_blanks"
   ],
   "note": "C42_keeps: the old data-sets are kept unless the last byte is a blank, '-' or '1'. C42_lost: after a bare delimiter every added data-set is lost, for all files and lists; C42_negation and C42_negation_blanks are concrete files."
  },
  {
   "property": "C43",
   "status": "partial",
   "theorems": [
    "Verif.C43_sets",
    "Verif.C43_types",
    "Verif.C43_read_partial",
    "Verif.C43_written",
    "Verif.C43_negation_binary",
    "Verif.C43_negation_55"
   ],
   "note": "C43_sets and C43_types hold for all files, C43_written for everything pyuff writes without binary values. C43_read_partial has the hypothesis EolSafe (Spec/Crlf.lean); C43_negation_binary and C43_negation_55 show what happens without it."
  },
  {
   "property": "C44",
   "status": "proved",
   "theorems": [
    "Verif.C44_text",
    "Verif.C44_counting",
    "Verif.C44_roundtrip",
    "Verif.C44_append"
   ],
   "note": "C44_text is an exact simulation for dictionaries that do not ask for binary values; C44_counting, C44_roundtrip and C44_append cover all data-sets."
  },
  {
   "property": "C45",
   "status": "partial",
   "theorems": [
    "Verif.C45_refinement_partial",
    "Verif.C45_overwritten"
   ],
   "note": "C45_refinement_partial: the answers of any history are those of the machine in Spec/Store.lean. Writers get well-formed data-sets (or arguments that are refused, ignored, or fail before anything is written), and an object does not read after another one has overwritten the file; C45_overwritten shows what it reads then."
  },
  {
   "property": "C46",
   "status": "partial",
   "theorems": [
    "Verif.C46_ascii_partial",
    "Verif.C46_error",
    "Verif.C46_binary",
    "Verif.C46_negation_padded",
    "Verif.C46_negation_empty",
    "Verif.C46_negation_count"
   ],
   "note": "C46_ascii_partial, C46_error and C46_binary hold for every file. Blanks that fill up the last line are accepted in single precision only (C46_negation_padded); a data-set without values is accepted in double precision only (C46_negation_empty); contradicting counts are not noticed (C46_negation_count)."
  },
  {
   "property": "C47",
   "status": "partial",
   "theorems": [
    "Verif.C47_2411",
    "Verif.C47_error",
    "Verif.C47_15_partial",
    "Verif.C47_82",
    "Verif.C47_2412_partial",
    "Verif.C47_negation_glued",
    "Verif.C47_negation_cut",
    "Verif.C47_negation_lines"
   ],
   "note": "C47_2411, C47_error and C47_82 hold for every layout. C47_15_partial needs a blank at the beginning of each line (C47_negation_glued: numbers of neighbouring lines are glued together otherwise); C47_2412_partial needs the nodes of an element on one line (C47_negation_lines: an element with twenty nodes in the layout of the standard is misread); C47_negation_cut: a file cut off within a node gives arrays of different lengths."
  },
  {
   "property": "C48",
   "status": "partial",
   "theorems": [
    "Verif.C48_missing",
    "Verif.C48_items",
    "Verif.C48_when",
    "Verif.C48_func",
    "Verif.C48_analysis",
    "Verif.C48_enough",
    "Verif.C48_negation_saved"
   ],
   "note": "C48_missing, C48_items, C48_when, C48_func and C48_analysis hold for every dictionary; C48_enough gives for each type a dictionary with no other entries that is written. That whatever was read can be saved is false (C48_negation_saved)."
  },
  {
   "property": "C49",
   "status": "partial",
   "theorems": [
    "Verif.C49_dichotomy_2429",
    "Verif.C49_dichotomy_2467",
    "Verif.C49_dichotomy_2414",
    "Verif.C49_same_2429",
    "Verif.C49_same_2467",
    "Verif.C49_same_2414",
    "Verif.C49_ends_2429_partial",
    "Verif.C49_ends_2467_partial",
    "Verif.C49_ends_2414_partial",
    "Verif.C49_hangs_2429",
    "Verif.C49_hangs_2467",
    "Verif.C49_hangs_2414",
    "Verif.C49_negation_2429",
    "Verif.C49_negation_2467",
    "Verif.C49_negation_2414"
   ],
   "note": "C49_dichotomy_* and C49_same_* hold for every block. That reading always ends is false (C49_negation_2429, C49_negation_2467, C49_negation_2414, and in general C49_hangs_*); C49_ends_*_partial proves it for the counts that are not negative enough."
  },
  {
   "property": "C50",
   "status": "proved",
   "theorems": [
    "Verif.C50_between",
    "Verif.C50_inside",
    "Verif.C50_select",
    "Verif.C50_join"
   ],
   "note": ""
  },
  {
   "property": "C51",
   "status": "proved",
   "theorems": [
    "Verif.C51_151",
    "Verif.C51_164",
    "Verif.C51_1858",
    "Verif.C51_2400"
   ],
   "note": "C51_151, C51_164, C51_1858 and C51_2400 are equivalences for every file; each also says that nothing but the documented error is possible otherwise."
  },
  {
   "property": "C52",
   "status": "partial",
   "theorems": [
    "Verif.C52_2429_partial",
    "Verif.C52_lost_2429",
    "Verif.C52_2467",
    "Verif.C52_negation_last",
    "Verif.C52_negation_short"
   ],
   "note": "C52_2467 holds for all groups. C52_2429_partial needs a line behind the first two lines of the last group: a last group without entities is lost (C52_lost_2429 in general, C52_negation_last for a file); fewer entities than announced are accepted (C52_negation_short)."
  },
  {
   "property": "C53",
   "status": "partial",
   "theorems": [
    "Verif.C53_18_partial",
    "Verif.C53_2420",
    "Verif.C53_negation_padded",
    "Verif.C53_negation_glued"
   ],
   "note": "C53_2420 holds for any layout. C53_18_partial needs first lines that begin with a blank and coordinate lines that end with the last cell; C53_negation_glued and C53_negation_padded show what happens otherwise."
  },
  {
   "property": "C54",
   "status": "partial",
   "theorems": [
    "Verif.C54_nodes_partial",
    "Verif.C54_elements_partial",
    "Verif.C54_elemNodes",
    "Verif.C54_freq",
    "Verif.C54_ignored",
    "Verif.C54_error",
    "Verif.C54_negation_points",
    "Verif.C54_negation_lines",
    "Verif.C54_negation_cut",
    "Verif.C54_negation_elements",
    "Verif.C54_negation_backwards"
   ],
   "note": "C54_elemNodes and C54_freq hold for any layout. C54_nodes_partial and C54_elements_partial need all values of a node or element in one line and equally many words in all first lines; C54_negation_lines, C54_negation_cut, C54_negation_points and C54_negation_elements show what happens otherwise. C54_negation_backwards shows a frequency response whose number of values is negative being read back to front. C54_ignored says which data are silently dropped."
  },
  {
   "property": "C55",
   "status": "partial",
   "theorems": [
    "Verif.C55_real3_partial",
    "Verif.C55_real6_partial",
    "Verif.C55_cplx_partial",
    "Verif.C55_unsupported",
    "Verif.C55_error",
    "Verif.C55_negation_padded",
    "Verif.C55_negation_scalar",
    "Verif.C55_negation_short",
    "Verif.C55_negation_surplus"
   ],
   "note": "The three reading theorems need fewer than 13 characters after the last cell of a line and at least one node; C55_negation_padded, C55_negation_scalar, C55_negation_short and C55_negation_surplus show what happens otherwise. C55_error and C55_unsupported cover all other headers."
  },
  {
   "property": "C56",
   "status": "partial",
   "theorems": [
    "Verif.C56_header",
    "Verif.C56_error",
    "Verif.C56_ascii_partial",
    "Verif.C56_binary",
    "Verif.C56_unsupported",
    "Verif.C56_dropped",
    "Verif.C56_negation_dropped",
    "Verif.C56_negation_odd"
   ],
   "note": "C56_header, C56_error, C56_binary, C56_unsupported and C56_dropped are complete. C56_ascii_partial needs the columns of the standard (fewer than 20 characters after the last cell in double precision, a value in single precision). C56_negation_dropped and C56_negation_odd show two silent failures."
  },
  {
   "property": "C57",
   "status": "proved",
   "theorems": [
    "Verif.C57_int",
    "Verif.C57_bytes",
    "Verif.C57_float",
    "Verif.C57_negation_fortran",
    "Verif.C57_fortran"
   ],
   "note": "Equivalences with a grammar of literals stated in Spec/Literals.lean; the double is characterised by its rational value (nearest, ties to even, overflow). C57_negation_fortran is the refusal of the exponent letter D by every reader that calls float() directly."
  },
  {
   "property": "C58",
   "status": "proved",
   "theorems": [
    "Verif.C58_written",
    "Verif.C58_failed",
    "Verif.C58_overwritten",
    "Verif.C58_counted",
    "Verif.C58_typed",
    "Verif.C58_entries",
    "Verif.C58_binary",
    "Verif.C58_types"
   ],
   "note": "For the writers the content of the dictionary is arbitrary; the one writer without a closing line (2414, location 5, not a frequency response) is excluded by NeverClosed and is the subject of C30. For the readers the bytes are arbitrary; the entries are listed in Spec/Typed.lean."
  },
  {
   "property": "C59",
   "status": "proved",
   "theorems": [
    "Verif.C59_new",
    "Verif.C59_lost",
    "Verif.C59_2411",
    "Verif.C59_2411_iff",
    "Verif.C59_2400",
    "Verif.C59_2400_iff",
    "Verif.C59_164",
    "Verif.C59_164_iff"
   ],
   "note": "C59_new and C59_lost hold for every dictionary; C59_2411, C59_2400 and C59_164 compute what is read, and the _iff theorems give the exact condition for a round trip."
  },
  {
   "property": "C60",
   "status": "proved",
   "theorems": [
    "Verif.C60_texts",
    "Verif.C60_lost",
    "Verif.C60_negation_shifted"
   ],
   "note": "C60_texts holds for every file, object and selection; C60_lost is the consequence for writing, C60_negation_shifted shows how the records after a separator are read from the wrong lines."
  },
  {
   "property": "C61",
   "status": "proved",
   "theorems": [
    "Verif.C61_nodes",
    "Verif.C61_systems",
    "Verif.C61_mask",
    "Verif.C61_elements",
    "Verif.C61_groups",
    "Verif.C61_function",
    "Verif.C61_data",
    "Verif.C61_results",
    "Verif.C61_negation",
    "Verif.C61_negation_nodes"
   ],
   "note": "One theorem per kind of data-set, each for every file, object and selection. C61_negation (a function with two abscissas and one ordinate) and C61_negation_nodes (a node cut off) show that the lengths need not be equal."
  },
  {
   "property": "C62",
   "status": "proved",
   "theorems": [
    "Verif.C62_kept",
    "Verif.C62_repaired"
   ],
   "note": "C62_kept is an invariant over all histories without overwriting; what is added after a failed call can be lost (C09_lost), what was there before cannot. C62_repaired starts from any state of file and objects."
  },
  {
   "property": "C63",
   "status": "proved",
   "theorems": [
    "Verif.C63_header",
    "Verif.C63_when",
    "Verif.C63_items"
   ],
   "note": "C63_header for the entries that are always written, C63_when for those of an analysis type, C63_items for the values of a list. Values that Python converts (numbers of the other kinds, truth values) are not covered; what arrays do in a header is not modelled."
  },
  {
   "property": "C64",
   "status": "proved",
   "theorems": [
    "Verif.C64_short",
    "Verif.C64_2420",
    "Verif.C64_uneven",
    "Verif.C64_extra",
    "Verif.C64_even",
    "Verif.C64_few",
    "Verif.C64_negation",
    "Verif.C64_negation_even"
   ],
   "note": "C64_short and C64_2420 (refusals), C64_extra and C64_even (no influence, about pairs of calls), C64_uneven and C64_few (functions). C64_negation and C64_negation_even show that a call with surplus values succeeds. For r1 of data-set 55 surplus values can matter (one complex value makes the data-set complex), so C64_extra covers r2 and r3 only."
  },
  {
   "property": "C65",
   "status": "partial",
   "theorems": [
    "Verif.C65_again",
    "Verif.C65_alias",
    "Verif.C65_distinct",
    "Verif.C65_negation"
   ],
   "note": "C65_again (for the same byte order of the machine), C65_distinct and C65_alias hold for arbitrary dictionaries; C65_negation: the second of two occurrences of the same header object keeps the dates of the first."
  },
  {
   "property": "C66",
   "status": "partial",
   "theorems": [
    "Verif.C66_complex",
    "Verif.C66_real",
    "Verif.C66_imaginary",
    "Verif.C66_unreadable",
    "Verif.C66_forced",
    "Verif.C66_negation",
    "Verif.C66_other"
   ],
   "note": "That the data come back is false of every function declared as what it is not (C66_negation, any precision and spacing). C66_complex, C66_real, C66_imaginary and C66_unreadable compute what is read; for unequal spacing they cover double precision. C66_forced: force_double=True repairs the declaration. C66_other: other types are refused."
  },
  {
   "property": "C67",
   "status": "proved",
   "theorems": [
    "Verif.C67_used",
    "Verif.C67_extra",
    "Verif.C67_order",
    "Verif.C67_negation",
    "Verif.C67_needed"
   ],
   "note": "C67_used is about pairs of calls with arbitrary lists of dictionaries; C67_extra and C67_order are the two usual forms. C67_needed shows for every type and every listed entry a dictionary for which it matters (n_bytes only for what is written before an exception). The dictionaries inside a dictionary (elements of a 2412, groups of a 2467) are compared as they are. C67_negation: the order of element groups matters."
  },
  {
   "property": "C68",
   "status": "proved",
   "theorems": [
    "Verif.C68_accept",
    "Verif.C68_refused",
    "Verif.C68_odd",
    "Verif.C68_defaults_2420",
    "Verif.C68_defaults_2467",
    "Verif.C68_results_array",
    "Verif.C68_results_dropped",
    "Verif.C68_components",
    "Verif.C68_function",
    "Verif.C68_double",
    "Verif.C68_even_any",
    "Verif.C68_functions"
   ],
   "note": "C68_accept is an equivalence for whole calls; C68_refused says that the model does not leave the other outcome open. Covered are all fifteen types, and unsupported types; a function (58) only with ordinates and abscissas that are arrays of floating point numbers (C48, C63, C64 and C66 say more about other values). C68_function spells its condition out, C68_double and C68_even_any are two consequences, C68_functions shows both sides. C68_odd shows two acceptances that make no sense, C68_defaults_2420 and C68_defaults_2467 two sets of defaults that do not help, C68_results_array and C68_results_dropped two surprises of data-set 2414, C68_components one of data-set 55."
  },
  {
   "property": "C69",
   "status": "proved",
   "theorems": [
    "Verif.C69_split",
    "Verif.C69_stop",
    "Verif.C69_alone",
    "Verif.C69_each",
    "Verif.C69_any_order",
    "Verif.C69_first",
    "Verif.C69_anywhere",
    "Verif.C69_negation"
   ],
   "note": "All theorems are about arbitrary lists of arbitrary dictionaries. C69_split and C69_stop decompose a call; C69_alone, C69_each, C69_any_order and C69_first say when it succeeds and with which exception it fails; C69_anywhere says that time and machine do not matter without headers and binary functions, and C69_negation that they do with them. The dictionaries of a list are taken to be distinct objects (C65 treats the same object given twice)."
  },
  {
   "property": "C70",
   "status": "proved",
   "theorems": [
    "Verif.C70_components",
    "Verif.C70_function",
    "Verif.C70_declared",
    "Verif.C70_bytes",
    "Verif.C70_negation",
    "Verif.C70_needed",
    "Verif.C70_analysis",
    "Verif.C70_results",
    "Verif.C70_response",
    "Verif.C70_negation_response",
    "Verif.C70_negation_results",
    "Verif.C70_needed_layout"
   ],
   "note": "All theorems are about pairs of calls with arbitrary surroundings. C70_components (complex numpy arrays as r1), C70_function (abscissas as arrays of floats, spacing given as a nonzero integer, double precision forced; C64_even is the part about the abscissas for either way of writing), C70_declared, C70_bytes. C70_analysis and C70_results: only the entries of the layout that the dictionary asks for are used (analysis type and location given as integers; unsupported ones included). C70_response: which components of a frequency response are used. C70_needed_layout: these do matter. C70_negation, C70_negation_results and C70_negation_response: dictionaries that differ in used entries are accepted and give the same file. C70_needed shows by concrete files that the conditions are needed."
  }
 ]
}