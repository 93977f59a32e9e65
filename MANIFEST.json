{
 "claims": [
  {
   "property": "C01",
   "status": "proved",
   "theorems": [
    "Nappy.Props.C01_brace_annotation",
    "Nappy.Props.C01_brace_unique",
    "Nappy.Props.C01_prefix"
   ],
   "note": "Declarative reading of the regular expression; exact for every line."
  },
  {
   "property": "C02",
   "status": "proved",
   "theorems": [
    "Nappy.Props.C02_fixed_count",
    "Nappy.Props.C02_fixed_count_complete"
   ],
   "note": "Soundness and completeness."
  },
  {
   "property": "C03",
   "status": "partial",
   "theorems": [
    "Nappy.Props.C03_false",
    "Nappy.Props.C03_unknown_lines_partial",
    "Nappy.Props.C03_surplus_bound_partial",
    "Nappy.Props.C03_nonpositive"
   ],
   "note": "False as stated: surplus items are accepted when a line does not itself exceed n items. Proved: what is accepted exactly, no value lost, at most n-1 surplus items."
  },
  {
   "property": "C04",
   "status": "proved",
   "theorems": [
    "Nappy.Props.C04_layout"
   ],
   "note": "Any layout over lines."
  },
  {
   "property": "C05",
   "status": "partial",
   "theorems": [
    "Nappy.Props.C05_hang_is_divergence",
    "Nappy.Props.C05_return_is_termination",
    "Nappy.Props.C05_false",
    "Nappy.Props.C05_truncated_after_nv",
    "Nappy.Props.C05_open_returns_partial",
    "Nappy.Props.C05_whole_file_partial",
    "Nappy.Props.C05_cut_fails"
   ],
   "note": "False: a header that ends inside a multi-line list never returns. Proved: the outcome `hang` is divergence of the unrolled loop and every other outcome is termination; for whole files of all formats, exactly those whose header is right up to a list of values and which hold fewer words from there on are never opened; all others are opened or raise."
  },
  {
   "property": "C06",
   "status": "proved",
   "theorems": [
    "Nappy.Props.C06_roundtrip_1001"
   ],
   "note": ""
  },
  {
   "property": "C07",
   "status": "proved",
   "theorems": [
    "Nappy.Props.C07_roundtrip_1010"
   ],
   "note": ""
  },
  {
   "property": "C08",
   "status": "proved",
   "theorems": [
    "Nappy.Props.C08_roundtrip_1020"
   ],
   "note": ""
  },
  {
   "property": "C09",
   "status": "partial",
   "theorems": [
    "Nappy.Props.C09_roundtrip_2010",
    "Nappy.Props.C09_roundtrip_partial",
    "Nappy.Props.C09_needs_palindrome",
    "Nappy.Props.C09_not_3010"
   ],
   "note": "Proved for every 2010 dictionary and for 3010/4010 dictionaries whose NXDEF reads the same backwards; shown necessary for every well-formed dictionary; a 3010 counterexample is given."
  },
  {
   "property": "C10",
   "status": "proved",
   "theorems": [
    "Nappy.Props.C10_roundtrip_2110"
   ],
   "note": ""
  },
  {
   "property": "C11",
   "status": "partial",
   "theorems": [
    "Nappy.Props.C11_roundtrip_2160_partial",
    "Nappy.Props.C11_not_two_words",
    "Nappy.Props.C11_not_without_text"
   ],
   "note": "Proved when marks are single words, text values are not blank and there is at least one auxiliary variable of each kind; counterexamples otherwise."
  },
  {
   "property": "C12",
   "status": "partial",
   "theorems": [
    "Nappy.Props.C12_roundtrip_2310_partial",
    "Nappy.Props.C12_read_back",
    "Nappy.Props.C12_not_two_variables"
   ],
   "note": "Proved with one variable or one value per mark; in general the theorem C12_read_back says exactly what is read; counterexample with two variables."
  },
  {
   "property": "C13",
   "status": "proved",
   "theorems": [
    "Nappy.Props.C13_nlhead",
    "Nappy.Props.C13_supplied_nlhead",
    "Nappy.Props.C13_reader",
    "Nappy.Props.C13_carriage_return_breaks"
   ],
   "note": "For every dictionary the written NLHEAD is the number of header lines (lines as the writer ends them), and a reader that drops the ignored lines and takes NLHEAD lines gets exactly the header. With a carriage return inside a header string the reader counts more lines; witness given."
  },
  {
   "property": "C14",
   "status": "proved",
   "theorems": [
    "Nappy.Props.C14_ffi",
    "Nappy.Props.C14_class",
    "Nappy.Props.C14_unknown",
    "Nappy.Props.C14_dispatch"
   ],
   "note": ""
  },
  {
   "property": "C15",
   "status": "partial",
   "theorems": [
    "Nappy.Props.C15_one_variable",
    "Nappy.Props.C15_only_order_partial",
    "Nappy.Props.C15_symmetric",
    "Nappy.Props.C15_exact",
    "Nappy.Props.C15_fails"
   ],
   "note": "False: XNAME, DX and NX of the caller are reversed in place. Proved: nothing else changes, nothing at all for formats with one independent variable, and exactly when a write leaves the dictionary unchanged."
  },
  {
   "property": "C16",
   "status": "partial",
   "theorems": [
    "Nappy.Props.C16_identical_partial",
    "Nappy.Props.C16_one_variable",
    "Nappy.Props.C16_alternate",
    "Nappy.Props.C16_same_data",
    "Nappy.Props.C16_fails"
   ],
   "note": "False for two or more independent variables. Proved: identical with one independent variable or symmetric lists, alternating between two texts otherwise, data section always the same."
  },
  {
   "property": "C17",
   "status": "proved",
   "theorems": [
    "Nappy.Props.C17_write_once",
    "Nappy.Props.C17_refused",
    "Nappy.Props.C17_file_unchanged",
    "Nappy.Props.C17_read",
    "Nappy.Props.C17_content"
   ],
   "note": ""
  },
  {
   "property": "C18",
   "status": "partial",
   "theorems": [
    "Nappy.Props.C18_whole_partial",
    "Nappy.Props.C18_no_header",
    "Nappy.Props.C18_fails_ignored_lines"
   ],
   "note": "Proved for all formats without ignored header lines and for no_header; false for 2160 with ignored header lines."
  },
  {
   "property": "C19",
   "status": "partial",
   "theorems": [
    "Nappy.Props.C19_data_section",
    "Nappy.Props.C19_no_header_partial",
    "Nappy.Props.C19_fails_3010"
   ],
   "note": "Proved when NX reads the same backwards (all formats but 3010/4010 always do); false for 3010."
  },
  {
   "property": "C20",
   "status": "partial",
   "theorems": [
    "Nappy.Props.C20_marks",
    "Nappy.Props.C20_lines_partial",
    "Nappy.Props.C20_ignored_lines_unmarked",
    "Nappy.Props.C20_line_break_fails"
   ],
   "note": "The annotated text is the plain text with marks put in, for every dictionary; line by line if no string holds a line-break character and no header line is missing. The ignored lines of 2160 get no mark, and a rarer line-break character in a name puts a mark inside a line."
  },
  {
   "property": "C21",
   "status": "proved",
   "theorems": [
    "Nappy.Props.C21_cells",
    "Nappy.Props.C21_file"
   ],
   "note": "For well-formed dictionaries of every format whose formatted values and strings hold no comma and no white space."
  },
  {
   "property": "C22",
   "status": "proved",
   "theorems": [
    "Nappy.Props.C22_terminates",
    "Nappy.Props.C22_passes_1001",
    "Nappy.Props.C22_passes_1010",
    "Nappy.Props.C22_passes_1020",
    "Nappy.Props.C22_passes_2010",
    "Nappy.Props.C22_passes_2110",
    "Nappy.Props.C22_passes_2160",
    "Nappy.Props.C22_passes_2310"
   ],
   "note": "For every text and object, all formats."
  },
  {
   "property": "C23",
   "status": "proved",
   "theorems": [
    "Nappy.Props.C23_gap",
    "Nappy.Props.C23_trailing"
   ],
   "note": "All formats."
  },
  {
   "property": "C24",
   "status": "proved",
   "theorems": [
    "Nappy.Props.C24_shape",
    "Nappy.Props.C24_opened",
    "Nappy.Props.C24_header_kept"
   ],
   "note": "All formats, also the ones with several independent variables, for the first readData of an opened file (see C26 for later ones)."
  },
  {
   "property": "C25",
   "status": "partial",
   "theorems": [
    "Nappy.Props.C25_partial",
    "Nappy.Props.C25_2160_partial",
    "Nappy.Props.C25_fails"
   ],
   "note": "False: numbers left over on the last line of a record are dropped. Proved: what is held is a subsequence of the numbers of the file (2160: of the words, numbers and texts of its lines), and all of them when the counts agree."
  },
  {
   "property": "C26",
   "status": "partial",
   "theorems": [
    "Nappy.Props.C26_partial",
    "Nappy.Props.C26_2010",
    "Nappy.Props.C26_2310",
    "Nappy.Props.C26_fails"
   ],
   "note": "Proved for 1001, 1010, 1020, 2110 and 2160. False for 2010, 3010, 4010 and 2310; the exact result of n calls is proved."
  },
  {
   "property": "C27",
   "status": "partial",
   "theorems": [
    "Nappy.Props.C27_header",
    "Nappy.Props.C27_data_partial",
    "Nappy.Props.C27_fails"
   ],
   "note": "Header: proved for every file. Data: proved when NLHEAD is not negative; false otherwise."
  },
  {
   "property": "C28",
   "status": "proved",
   "theorems": [
    "Nappy.Props.C28_fill",
    "Nappy.Props.C28_row_major",
    "Nappy.Props.C28_flatten",
    "Nappy.Props.C28_written",
    "Nappy.Props.C28_short"
   ],
   "note": ""
  },
  {
   "property": "C29",
   "status": "proved",
   "theorems": [
    "Nappy.Props.C29_sound",
    "Nappy.Props.C29_refused",
    "Nappy.Props.C29_accepted"
   ],
   "note": "A NIV that is a float is outside the model."
  },
  {
   "property": "C30",
   "status": "partial",
   "theorems": [
    "Nappy.Props.C30_partial",
    "Nappy.Props.C30_always",
    "Nappy.Props.C30_fails"
   ],
   "note": "Proved as an equivalence: the format is recovered exactly if the axes show it, which is always so for 1001, 1010, 1020, 3010 and 4010. False for 2010 with one mark, 2110 with one value at the first mark, and files without marks."
  },
  {
   "property": "C31",
   "status": "partial",
   "theorems": [
    "Nappy.Props.C31_partial",
    "Nappy.Props.C31_exact",
    "Nappy.Props.C31_fails"
   ],
   "note": "False for every name with an extension: the code never takes the old one off. Proved for names without a dot, and the exact result for all names."
  },
  {
   "property": "C32",
   "status": "proved",
   "theorems": [
    "Nappy.Props.C32_list",
    "Nappy.Props.C32_dict",
    "Nappy.Props.C32_odd"
   ],
   "note": ""
  },
  {
   "property": "C33",
   "status": "proved",
   "theorems": [
    "Nappy.Props.C33_partition",
    "Nappy.Props.C33_files"
   ],
   "note": "For dictionaries of lists of equal length that have the keys IVOL and NVOL; for well-formed 1001 dictionaries also that all parts are written and read back."
  },
  {
   "property": "C34",
   "status": "partial",
   "theorems": [
    "Nappy.Props.C34_same_files",
    "Nappy.Props.C34_once_partial",
    "Nappy.Props.C34_split_twice",
    "Nappy.Props.C34_fails",
    "Nappy.Props.C34_distinct",
    "Nappy.Props.C34_overwrites"
   ],
   "note": "The list and the files written are always the same set; each file is listed once without a size limit, and twice when it is a part of a split. No file of a call is written over when the extension has two or more characters; with one character it is."
  },
  {
   "property": "C35",
   "status": "partial",
   "theorems": [
    "Nappy.Props.C35_ends_partial",
    "Nappy.Props.C35_zero",
    "Nappy.Props.C35_diverges"
   ],
   "note": "Ends for every limit that is not negative (zero raises); never ends for a negative one."
  },
  {
   "property": "C36",
   "status": "proved",
   "theorems": [
    "Nappy.Props.C36_distinct",
    "Nappy.Props.C36_single",
    "Nappy.Props.C36_default",
    "Nappy.Props.C36_numbered"
   ],
   "note": ""
  },
  {
   "property": "C37",
   "status": "partial",
   "theorems": [
    "Nappy.Props.C37_only_permitted",
    "Nappy.Props.C37_counts",
    "Nappy.Props.C37_text",
    "Nappy.Props.C37_date",
    "Nappy.Props.C37_user_first",
    "Nappy.Props.C37_string_fails",
    "Nappy.Props.C37_string_raises",
    "Nappy.Props.C37_names_fails"
   ],
   "note": "Proved, except that comments given as one string (as on the command line) are counted by characters or raise, and that names of variables are split at blanks."
  },
  {
   "property": "C38",
   "status": "partial",
   "theorems": [
    "Nappy.Props.C38_merged",
    "Nappy.Props.C38_empty",
    "Nappy.Props.C38_keeps",
    "Nappy.Props.C38_total_partial",
    "Nappy.Props.C38_fails"
   ],
   "note": "Proved, except that old comments that are just the start marker raise IndexError."
  },
  {
   "property": "C39",
   "status": "partial",
   "theorems": [
    "Nappy.Props.C39_headers",
    "Nappy.Props.C39_count",
    "Nappy.Props.C39_others",
    "Nappy.Props.C39_1010_fails",
    "Nappy.Props.C39_delimiter_fails"
   ],
   "note": "Counts and old lines proved for every dictionary. The names are those of the columns for 1001 and 2110; for 1010 the independent variable is missing, and the delimiter is ignored."
  },
  {
   "property": "C40",
   "status": "proved",
   "theorems": [
    "Nappy.Props.C40_ends",
    "Nappy.Props.C40_convert"
   ],
   "note": "The bound on the number of turns is the number of variables; more turns change nothing. The linspace test on the first axis is a parameter."
  },
  {
   "property": "C41",
   "status": "partial",
   "theorems": [
    "Nappy.Props.C41_partial",
    "Nappy.Props.C41_reasons",
    "Nappy.Props.C41_subset_lost",
    "Nappy.Props.C41_name_lost",
    "Nappy.Props.C41_number_lost"
   ],
   "note": "False: variables on a regular subset of the axis, variables sharing a singleton's name and variables with the same stored number are lost, each shown by a witness. Proved without these; and these are the only reasons."
  },
  {
   "property": "C42",
   "status": "partial",
   "theorems": [
    "Nappy.Props.C42_partial",
    "Nappy.Props.C42_duplicate_lost",
    "Nappy.Props.C42_large_raises",
    "Nappy.Props.C42_negative_last"
   ],
   "note": "Proved for different numbers below 1000. Repeated, large and negative numbers fail, each shown by a witness."
  },
  {
   "property": "C43",
   "status": "partial",
   "theorems": [
    "Nappy.Props.C43_request",
    "Nappy.Props.C43_dims_partial",
    "Nappy.Props.C43_possible",
    "Nappy.Props.C43_fails",
    "Nappy.Props.C43_possible_refused",
    "Nappy.Props.C43_dims_others_partial",
    "Nappy.Props.C43_attribute_wins",
    "Nappy.Props.C43_in_dict"
   ],
   "note": "Proved, except when a variable on a regular subset of the first axis of 2-D data makes 1020 the only format. The attribute file_format_index of the source replaces the format chosen."
  },
  {
   "property": "C44",
   "status": "partial",
   "theorems": [
    "Nappy.Props.C44_exact_partial",
    "Nappy.Props.C44_single",
    "Nappy.Props.C44_complete",
    "Nappy.Props.C44_fails",
    "Nappy.Props.C44_mixed"
   ],
   "note": "False: one common value is enough. What is checked is characterised exactly."
  },
  {
   "property": "C45",
   "status": "proved",
   "theorems": [
    "Nappy.Props.C45_subset",
    "Nappy.Props.C45_positive",
    "Nappy.Props.C45_empty"
   ],
   "note": "Exact for axes with values; an empty axis raises."
  },
  {
   "property": "C46",
   "status": "partial",
   "theorems": [
    "Nappy.Props.C46_partial",
    "Nappy.Props.C46_rounding_fails"
   ],
   "note": "Proved for arithmetic without rounding, through writing, reading and normalising; for 3010 and 4010 with the restriction of C09. False with rounding: witness in decimal arithmetic of two digits."
  },
  {
   "property": "C47",
   "status": "proved",
   "theorems": [
    "Nappy.Props.C47_split",
    "Nappy.Props.C47_plain",
    "Nappy.Props.C47_general",
    "Nappy.Props.C47_callback",
    "Nappy.Props.C47_empty_units"
   ],
   "note": "Also the exact result for every text on one line, whatever brackets it holds."
  },
  {
   "property": "C48",
   "status": "partial",
   "theorems": [
    "Nappy.Props.C48_get",
    "Nappy.Props.C48_keys",
    "Nappy.Props.C48_repeat",
    "Nappy.Props.C48_set_parse_partial",
    "Nappy.Props.C48_set_lost",
    "Nappy.Props.C48_fails",
    "Nappy.Props.C48_get_replaces",
    "Nappy.Props.C48_item",
    "Nappy.Props.C48_item_dict"
   ],
   "note": "getNADict and indexing proved. Setting and getting back is false: what is set is ignored by getNADict; proved once the dictionary has been made into attributes."
  },
  {
   "property": "C49",
   "status": "proved",
   "theorems": [
    "Nappy.Props.C49",
    "Nappy.Props.C49_runs"
   ],
   "note": "Proved for compNAFiles. The public compareNA never gets there, see C69."
  },
  {
   "property": "C50",
   "status": "partial",
   "theorems": [
    "Nappy.Props.C50",
    "Nappy.Props.C50_partial",
    "Nappy.Props.C50_fails"
   ],
   "note": "Proved for what is printed: no difference printed means that all lines agree. The value returned is True for files with different headers or lengths."
  },
  {
   "property": "C51",
   "status": "partial",
   "theorems": [
    "Nappy.Props.C51_partial",
    "Nappy.Props.C51_fails"
   ],
   "note": "Proved for numbers of opposite sign. Numbers of the same sign are never reported, however far apart."
  },
  {
   "property": "C52",
   "status": "partial",
   "theorems": [
    "Nappy.Props.C52_partial",
    "Nappy.Props.C52_fails",
    "Nappy.Props.C52_grows"
   ],
   "note": "Proved: every comment that is neither blank nor a heading of nappy is in the collected lists, in order. False as stated: blank comments are lost, and headings, attributes of variables and history are added; for every file, each trip adds at least three lines for every main variable."
  },
  {
   "property": "C53",
   "status": "partial",
   "theorems": [
    "Nappy.Props.C53_partial",
    "Nappy.Props.C53_all",
    "Nappy.Props.C53_content",
    "Nappy.Props.C53_fails",
    "Nappy.Props.C53_file_fails",
    "Nappy.Props.C53_env_fails"
   ],
   "note": "Proved for every history of lookups of the default files and of changes to the outer dictionaries, for configuration, annotations and local attributes. False: the dictionaries of sections are shared between callers, and another file or environment variable is ignored after the first lookup."
  },
  {
   "property": "C54",
   "status": "partial",
   "theorems": [
    "Nappy.Props.C54_nc_partial",
    "Nappy.Props.C54_nc_names",
    "Nappy.Props.C54_only_names",
    "Nappy.Props.C54_split_fails",
    "Nappy.Props.C54_csv",
    "Nappy.Props.C54_csv_fails",
    "Nappy.Props.C54_objects_fails",
    "Nappy.Props.C54_na_csv_partial",
    "Nappy.Props.C54_na_csv_annotation",
    "Nappy.Props.C54_na_csv_fails",
    "Nappy.Props.C54_mode_fails"
   ],
   "note": "Proved for convertNCToNA without a size limit, for convertNCToCSV without a name, and for convertNAToCSV apart from no_header. False: no_header is dropped for files that are split and in convertNAToCSV; convertNCToCSV with a name passes on neither name nor comma; the functions for variables always raise; mode is not used."
  },
  {
   "property": "C55",
   "status": "partial",
   "theorems": [
    "Nappy.Props.C55_nc2na_partial",
    "Nappy.Props.C55_nc2na_fails",
    "Nappy.Props.C55_nc2na_no_input",
    "Nappy.Props.C55_getopt",
    "Nappy.Props.C55_na2nc_partial",
    "Nappy.Props.C55_na2nc_fails",
    "Nappy.Props.C55_compare_fails"
   ],
   "note": "Proved for every spelling of the options of nc2na except -l and of na2nc except -v and -a. These stop the tools, and the comparison tool never runs."
  },
  {
   "property": "C56",
   "status": "partial",
   "theorems": [
    "Nappy.Props.C56_retry_appends",
    "Nappy.Props.C56_fails"
   ],
   "note": "False: data_written is set only after success and nothing is undone. Proved: exactly what the file then holds."
  },
  {
   "property": "C57",
   "status": "proved",
   "theorems": [
    "Nappy.Props.C57_variables",
    "Nappy.Props.C57_axes",
    "Nappy.Props.C57_aux",
    "Nappy.Props.C57_simple",
    "Nappy.Props.C57_opened"
   ],
   "note": "For every file that opens, before and after reading its data, and for every object whose header counts match."
  },
  {
   "property": "C58",
   "status": "partial",
   "theorems": [
    "Nappy.Props.C58_fails",
    "Nappy.Props.C58_again_partial"
   ],
   "note": "False with column headers, which the configuration always turns on. Proved without column headers and comment overrides."
  },
  {
   "property": "C59",
   "status": "partial",
   "theorems": [
    "Nappy.Props.C59_2310_partial",
    "Nappy.Props.C59_1001",
    "Nappy.Props.C59_1020_partial",
    "Nappy.Props.C59_1020_fails",
    "Nappy.Props.C59_2010",
    "Nappy.Props.C59_2110",
    "Nappy.Props.C59_2310_fails",
    "Nappy.Props.C59_2310_increment",
    "Nappy.Props.C59_axis_name_fails",
    "Nappy.Props.C59_file_1001"
   ],
   "note": "Proved for 1001, 2010, 3010, 4010 and 2110, and for 1020 with one axis; for 1001 together with writing and reading. For 2310 the dictionary is not well-formed (DX is one short and holds the wrong increment), but what is written is the file of a well-formed one; false for 1020 with more axes, for all data. The names of the extra auxiliary variables of 2110 and 2310 give the wrong axis."
  },
  {
   "property": "C60",
   "status": "partial",
   "theorems": [
    "Nappy.Props.C60_one_axis",
    "Nappy.Props.C60_never_1010",
    "Nappy.Props.C60_mark_ignored",
    "Nappy.Props.C60_request_refused"
   ],
   "note": "False: with one axis no variable is ever auxiliary and format 1010 is never chosen, not even on request."
  },
  {
   "property": "C61",
   "status": "partial",
   "theorems": [
    "Nappy.Props.C61_names_partial",
    "Nappy.Props.C61_institution_partial",
    "Nappy.Props.C61_lines_partial",
    "Nappy.Props.C61_missing",
    "Nappy.Props.C61_volumes_fails"
   ],
   "note": "Proved for source, title and an institution that is not of the form nappy writes (C62). False for the volume numbers, which are always 1."
  },
  {
   "property": "C62",
   "status": "partial",
   "theorems": [
    "Nappy.Props.C62_partial",
    "Nappy.Props.C62_date_partial",
    "Nappy.Props.C62_history",
    "Nappy.Props.C62_fails"
   ],
   "note": "Proved for the four names, if the organisation does not hold the mark that nappy adds, and for the first date if the first axis is not a time axis. False for the date of revision and the volume numbers; the old format index replaces the new one."
  },
  {
   "property": "C63",
   "status": "partial",
   "theorems": [
    "Nappy.Props.C63_partial",
    "Nappy.Props.C63_fails"
   ],
   "note": "Order proved, and values of names that the conversion does not set. The values for its own names are replaced."
  },
  {
   "property": "C64",
   "status": "partial",
   "theorems": [
    "Nappy.Props.C64_values",
    "Nappy.Props.C64_aux",
    "Nappy.Props.C64_missing_partial",
    "Nappy.Props.C64_missing_fails"
   ],
   "note": "Proved, except that missing values are multiplied by the scale factor while the missing value is not."
  },
  {
   "property": "C65",
   "status": "partial",
   "theorems": [
    "Nappy.Props.C65_numbers",
    "Nappy.Props.C65_names_partial",
    "Nappy.Props.C65_unknown",
    "Nappy.Props.C65_digit_fails",
    "Nappy.Props.C65_aux_fails"
   ],
   "note": "Proved for numbers and for names that do not begin with a digit. Unknown auxiliary names are passed over."
  },
  {
   "property": "C66",
   "status": "partial",
   "theorems": [
    "Nappy.Props.C66_1001",
    "Nappy.Props.C66_1010",
    "Nappy.Props.C66_2010_partial",
    "Nappy.Props.C66_axes_fails",
    "Nappy.Props.C66_formats_fails"
   ],
   "note": "Proved for 1001 and 1010, and for 2010, 3010 and 4010 unless two axes get the same name. Files of 1020, 2110, 2160 and 2310 are never converted."
  },
  {
   "property": "C67",
   "status": "partial",
   "theorems": [
    "Nappy.Props.C67_1001_partial",
    "Nappy.Props.C67_2010_partial",
    "Nappy.Props.C67_1010_fails",
    "Nappy.Props.C67_name_fails",
    "Nappy.Props.C67_capitals_fails"
   ],
   "note": "Proved for 1001, 2010, 3010 and 4010 with unit scale factors, no NaN and at most 1000 variables: one file comes back, with the same values. Variables named like an axis are lost, names lose their capitals, and files of format 1010 lose their auxiliary variables to the other ones."
  },
  {
   "property": "C68",
   "status": "proved",
   "theorems": [
    "Nappy.Props.C68",
    "Nappy.Props.C68_approx"
   ],
   "note": ""
  },
  {
   "property": "C69",
   "status": "partial",
   "theorems": [
    "Nappy.Props.C69_fails"
   ],
   "note": "False: the function always raises a NameError."
  },
  {
   "property": "C70",
   "status": "partial",
   "theorems": [
    "Nappy.Props.C70_exact",
    "Nappy.Props.C70_stops",
    "Nappy.Props.C70_reports",
    "Nappy.Props.C70_true",
    "Nappy.Props.C70_fails"
   ],
   "note": "Proved that what is reported is true and that every line that differs in files on both sides that are not excluded is reported; C70_exact says the messages are exactly those of a separate specification of the walk. Lines that only one of the files has are not reported."
  },
  {
   "property": "C71",
   "status": "partial",
   "theorems": [
    "Nappy.Props.C71_partial",
    "Nappy.Props.C71_command_fails",
    "Nappy.Props.C71_program_fails"
   ],
   "note": "Proved for nc2csv.py started as a program with options only. False for the installed command, and for the program if another argument follows."
  },
  {
   "property": "C72",
   "status": "partial",
   "theorems": [
    "Nappy.Props.C72_written",
    "Nappy.Props.C72_chosen",
    "Nappy.Props.C72_dictionary",
    "Nappy.Props.C72_copy_partial",
    "Nappy.Props.C72_same_partial",
    "Nappy.Props.C72_again_partial",
    "Nappy.Props.C72_fails"
   ],
   "note": "Proved that the dictionary of any file that can be read writes what the object writes. The copy is proved to be the same text for all dictionaries that survive being read (C09, C11, C12): NXDEF reads the same backwards, and in 2310 there is one variable or one value per mark. Other 2310 files change."
  },
  {
   "property": "C73",
   "status": "partial",
   "theorems": [
    "Nappy.Props.C73_no_units",
    "Nappy.Props.C73_new",
    "Nappy.Props.C73_have",
    "Nappy.Props.C73_unnamed",
    "Nappy.Props.C73_axis",
    "Nappy.Props.C73_back",
    "Nappy.Props.C73_have_back",
    "Nappy.Props.C73_twice_fails"
   ],
   "note": "Proved for every variable and axis whose units hold no brackets. A name such as ((m)m) ends up with its units twice."
  },
  {
   "property": "C74",
   "status": "partial",
   "theorems": [
    "Nappy.Props.C74_declared",
    "Nappy.Props.C74_points",
    "Nappy.Props.C74_2310_fails"
   ],
   "note": "Proved for all formats but 2310, for which the spacing of one axis is given for every mark."
  },
  {
   "property": "C75",
   "status": "partial",
   "theorems": [
    "Nappy.Props.C75_pass",
    "Nappy.Props.C75_plain",
    "Nappy.Props.C75_run",
    "Nappy.Props.C75_parts",
    "Nappy.Props.C75_limited",
    "Nappy.Props.C75_3010_fails",
    "Nappy.Props.C75_2310_fails"
   ],
   "note": "Proved with and without a size limit, with a header and no annotation, for files of format 1001, 1020 with one axis, 2110, 2010, 2310 with one main variable, and 3010 and 4010 if the numbers of values given for the axes read the same backwards, provided the texts can stand in a header. Other files of format 3010 cannot be read, and two variables in 2310 get mixed up. For 1020 with more axes the dictionary holds lists where the writer wants numbers; writing such dictionaries is not modelled."
  },
  {
   "property": "C76",
   "status": "proved",
   "theorems": [
    "Nappy.Props.C76_read",
    "Nappy.Props.C76_only",
    "Nappy.Props.C76_written",
    "Nappy.Props.C76_all",
    "Nappy.Props.C76_unknown"
   ],
   "note": "C76_all shows in addition that every variable with axes that is asked for gets into a file, under the conditions of C41."
  },
  {
   "property": "C77",
   "status": "partial",
   "theorems": [
    "Nappy.Props.C77_file",
    "Nappy.Props.C77_all_partial",
    "Nappy.Props.C77_fails"
   ],
   "note": "Proved that the file has one variable for every name, the last one of this name, and if there are as many as in the NASA Ames file, they are these with their values. False: of variables whose names become the same only the last is kept."
  },
  {
   "property": "C78",
   "status": "partial",
   "theorems": [
    "Nappy.Props.C78_main",
    "Nappy.Props.C78_kept",
    "Nappy.Props.C78_long",
    "Nappy.Props.C78_aux_partial",
    "Nappy.Props.C78_aux_long_fails"
   ],
   "note": "Proved for main variables, and for auxiliary variables with names below 64 characters. False: for longer names of auxiliary variables the name given by the caller is not used."
  },
  {
   "property": "C79",
   "status": "partial",
   "theorems": [
    "Nappy.Props.C79_number",
    "Nappy.Props.C79_name_partial",
    "Nappy.Props.C79_digit_fails"
   ],
   "note": "Proved for numbers and for names that do not begin with a digit. False for those that do."
  },
  {
   "property": "C80",
   "status": "partial",
   "theorems": [
    "Nappy.Props.C80_exact_partial",
    "Nappy.Props.C80_short_fails"
   ],
   "note": "Proved as an equivalence with a declarative layout for all formats. The layout the code accepts differs from the expected one in three ways: lines missing at the end of the file count as empty, surplus values at the end of a list are read (C03), and the axes of 3010 and 4010 are expected in another order (C09)."
  },
  {
   "property": "C81",
   "status": "proved",
   "theorems": [
    "Nappy.Props.C81_header_only",
    "Nappy.Props.C81_any_data"
   ],
   "note": "For all formats; with a conversion of numbers that refuses the empty word."
  },
  {
   "property": "C82",
   "status": "partial",
   "theorems": [
    "Nappy.Props.C82_exact_partial",
    "Nappy.Props.C82_fails"
   ],
   "note": "False: NLHEAD is not compared with the header; with a wrong one, header lines are read as data or data are lost. Proved: the data lines are the lines after the header exactly if NLHEAD is right or is the negative number of data lines."
  },
  {
   "property": "C83",
   "status": "partial",
   "theorems": [
    "Nappy.Props.C83_exact_partial",
    "Nappy.Props.C83_file_partial",
    "Nappy.Props.C83_negative_fails"
   ],
   "note": "Proved as an equivalence with a declarative layout for all formats. False in two points: surplus values at the end of a list are dropped (C25), and with a negative number of character variables lines of a 2160 file are passed over."
  },
  {
   "property": "C84",
   "status": "proved",
   "theorems": [
    "Nappy.Props.C84_join",
    "Nappy.Props.C84_files"
   ],
   "note": "For the data of an object that was opened, and for whole files."
  },
  {
   "property": "C85",
   "status": "proved",
   "theorems": [
    "Nappy.Props.C85_cut",
    "Nappy.Props.C85_files"
   ],
   "note": "For the data of an object that was opened, and for whole files."
  },
  {
   "property": "C86",
   "status": "proved",
   "theorems": [
    "Nappy.Props.C86_parts",
    "Nappy.Props.C86_comments"
   ],
   "note": "For all formats."
  },
  {
   "property": "C87",
   "status": "proved",
   "theorems": [
    "Nappy.Props.C87_data",
    "Nappy.Props.C87_files"
   ],
   "note": "For all formats; for 2160 the number of character variables must not be negative (see C83)."
  },
  {
   "property": "C88",
   "status": "partial",
   "theorems": [
    "Nappy.Props.C88_run",
    "Nappy.Props.C88_pass",
    "Nappy.Props.C88_main",
    "Nappy.Props.C88_aux",
    "Nappy.Props.C88_axis",
    "Nappy.Props.C88_axes_partial",
    "Nappy.Props.C88_same",
    "Nappy.Props.C88_units",
    "Nappy.Props.C88_names_fails"
   ],
   "note": "proved for every file of a call that has format 1001, 2010, 3010 or 4010 and can be converted without two variables getting the same name: values, arrangement, missing values, order; for 1001 that the conversion succeeds, and the axis; for the others the axes if steps are exact and the format keeps the values; units if the name does not already hold them. Missing: files of the formats 1020, 2110 and 2310 cannot be converted back (C66_formats_fails); names that differ in capitals only (C88_names_fails); axes with rounded steps (C46_rounding_fails)"
  },
  {
   "property": "C89",
   "status": "proved",
   "theorems": [
    "Nappy.Props.C89_lawful",
    "Nappy.Props.C89_fixed",
    "Nappy.Props.C89_relative",
    "Nappy.Props.C89_exact_fixed",
    "Nappy.Props.C89_exact_digits",
    "Nappy.Props.C89_special",
    "Nappy.Props.C89_again_fixed",
    "Nappy.Props.C89_again_digits",
    "Nappy.Props.C89_again",
    "Nappy.Props.C89_file",
    "Nappy.Props.C89_copy",
    "Nappy.Props.C89_meaning",
    "Nappy.Props.C89_zeros_fails",
    "Nappy.Props.C89_cut_fails"
   ],
   "note": "printing (%) and reading (float) are models of Python, not of nappy code; floats are given by a sign, a magnitude as a fraction, and the float next to a decimal number. %s with a precision and zero padding of infinities are excluded, with witnesses"
  },
  {
   "property": "C90",
   "status": "proved",
   "theorems": [
    "Nappy.Props.C90_write",
    "Nappy.Props.C90_no_header",
    "Nappy.Props.C90_independent",
    "Nappy.Props.C90_errors",
    "Nappy.Props.C90_one_wrong"
   ],
   "note": "for all formats, both directions"
  },
  {
   "property": "C91",
   "status": "partial",
   "theorems": [
    "Nappy.Props.C91_partial",
    "Nappy.Props.C91_copy_partial",
    "Nappy.Props.C91_no_header",
    "Nappy.Props.C91_fails"
   ],
   "note": "false in four points, for which an exact condition is proved: texts that are empty or a lone quote, surplus values in lists (C03), axes that declare more values than they hold, records of 2160 without auxiliary variables. Without a header the first three do not matter"
  },
  {
   "property": "C92",
   "status": "partial",
   "theorems": [
    "Nappy.Props.C92_together_partial",
    "Nappy.Props.C92_exact",
    "Nappy.Props.C92_same",
    "Nappy.Props.C92_run",
    "Nappy.Props.C92_back_1001",
    "Nappy.Props.C92_back_2010",
    "Nappy.Props.C92_fails"
   ],
   "note": "axes of the same identity and length that have one value in common are taken for the same (C44), so the full claim is false; with axes that differ everywhere or nowhere it is proved, also for the way back from 1001, 2010, 3010 and 4010 files"
  },
  {
   "property": "C93",
   "status": "proved",
   "theorems": [
    "Nappy.Props.C93_number",
    "Nappy.Props.C93_distance",
    "Nappy.Props.C93_run"
   ],
   "note": "for the files that C75 shows to be readable"
  },
  {
   "property": "C94",
   "status": "partial",
   "theorems": [
    "Nappy.Props.C94_exact",
    "Nappy.Props.C94_partial",
    "Nappy.Props.C94_run_partial",
    "Nappy.Props.C94_format",
    "Nappy.Props.C94_lost_fails",
    "Nappy.Props.C94_false_fails"
   ],
   "note": "which values become the missing value is proved exactly; the claim is false if the number format rounds the missing value, or another value to it, and proved otherwise, with a condition on the digits for every number format"
  },
  {
   "property": "C95",
   "status": "partial",
   "theorems": [
    "Nappy.Props.C95_exact_partial",
    "Nappy.Props.C95_increment",
    "Nappy.Props.C95_2310_partial",
    "Nappy.Props.C95_empty",
    "Nappy.Props.C95_total",
    "Nappy.Props.C95_double_fails"
   ],
   "note": "proved for arithmetic without rounding; false for doubles"
  },
  {
   "property": "C96",
   "status": "proved",
   "theorems": [
    "Nappy.Props.C96_same_content",
    "Nappy.Props.C96_iff",
    "Nappy.Props.C96_dictionaries",
    "Nappy.Props.C96_values"
   ],
   "note": "for all formats"
  },
  {
   "property": "C97",
   "status": "partial",
   "theorems": [
    "Nappy.Props.C97_partial",
    "Nappy.Props.C97_fails"
   ],
   "note": "for formats 1001, 2010, 3010 and 4010, scale factors of one and names that stay distinct; files of format 1010 come back as 1001 (C67), other formats cannot be converted (C66), names may coincide (C77_fails), scale factors are applied (C64)"
  },
  {
   "property": "C98",
   "status": "proved",
   "theorems": [
    "Nappy.Props.C98_parse",
    "Nappy.Props.C98_dict",
    "Nappy.Props.C98_unique",
    "Nappy.Props.C98_config",
    "Nappy.Props.C98_default",
    "Nappy.Props.C98_debug",
    "Nappy.Props.C98_annotations",
    "Nappy.Props.C98_local",
    "Nappy.Props.C98_shipped",
    "Nappy.Props.C98_shipped_values"
   ],
   "note": "for files of sections with different names that have options with different names, section headings and options at the start of the line, and no section DEFAULT; Python's parser is modelled, what it does with other files is not stated"
  },
  {
   "property": "C99",
   "status": "partial",
   "theorems": [
    "Nappy.Props.C99_partial",
    "Nappy.Props.C99_fails"
   ],
   "note": "false: the text `False` counts as true; only an empty value switches the headings off"
  },
  {
   "property": "C100",
   "status": "partial",
   "theorems": [
    "Nappy.Props.C100_partial",
    "Nappy.Props.C100_fails",
    "Nappy.Props.C100_creator_fails"
   ],
   "note": "true for one dimension only; with more, arrayToList always raises and listOfListsCreator always raises a NameError; with one, listOfListsCreator adds nothing"
  },
  {
   "property": "C101",
   "status": "partial",
   "theorems": [
    "Nappy.Props.C101_partial",
    "Nappy.Props.C101_fails"
   ],
   "note": "false: the shipped configuration has no missing value, so importing the module raises a KeyError; with a configuration that has one it can be imported"
  },
  {
   "property": "C102",
   "status": "partial",
   "theorems": [
    "Nappy.Props.C102_fails"
   ],
   "note": "false: the function always raises an AttributeError, because the class it asks for does not exist"
  },
  {
   "property": "C103",
   "status": "partial",
   "theorems": [
    "Nappy.Props.C103_exact_partial",
    "Nappy.Props.C103_kept_partial",
    "Nappy.Props.C103_lists_fails"
   ],
   "note": "Exact for sources whose comment was not written by nappy, for attributes that are texts or numbers. False for lists: they leave no trace."
  },
  {
   "property": "C104",
   "status": "partial",
   "theorems": [
    "Nappy.Props.C104_exact_partial",
    "Nappy.Props.C104_value_partial",
    "Nappy.Props.C104_lost_fails",
    "Nappy.Props.C104_nappy_fails"
   ],
   "note": "Exact for sources whose comment was not written by nappy; the value of every singleton is there if the other variables have attributes. False if no main variable has one, for all data, and if the source has special comments of nappy."
  },
  {
   "property": "C105",
   "status": "partial",
   "theorems": [
    "Nappy.Props.C105_dict_fails",
    "Nappy.Props.C105_fails"
   ],
   "note": "False: the function raises for every dictionary and for every object that nappy makes."
  },
  {
   "property": "C106",
   "status": "partial",
   "theorems": [
    "Nappy.Props.C106_same_partial",
    "Nappy.Props.C106_names_partial",
    "Nappy.Props.C106_converted",
    "Nappy.Props.C106_name_fails",
    "Nappy.Props.C106_nothing_fails",
    "Nappy.Props.C106_bounds_fails"
   ],
   "note": "Proved with a file name, for variables that are no bounds of others, if there is something to write. Without a name the object always raises, with nothing to write it raises while convertNCToNA returns an empty list, and bounds are written."
  },
  {
   "property": "C107",
   "status": "partial",
   "theorems": [
    "Nappy.Props.C107_files",
    "Nappy.Props.C107_dirs_partial",
    "Nappy.Props.C107_self",
    "Nappy.Props.C107_program",
    "Nappy.Props.C107_dirs_fails",
    "Nappy.Props.C107_files_fails"
   ],
   "note": "Proved for files with names that are not left out, for the lines of files in directories, and for an item compared with itself. False: entries that only one directory has are reported from one side only, and only the first name decides what is left out."
  },
  {
   "property": "C108",
   "status": "proved",
   "theorems": [
    "Nappy.Props.C108_names",
    "Nappy.Props.C108_kept",
    "Nappy.Props.C108_kept_plain"
   ],
   "note": "for the files that C97_partial is about"
  },
  {
   "property": "C109",
   "status": "partial",
   "theorems": [
    "Nappy.Props.C109_partial",
    "Nappy.Props.C109_never_fails",
    "Nappy.Props.C109_fails",
    "Nappy.Props.C109_blank",
    "Nappy.Props.C109_not_known",
    "Nappy.Props.C109_time_fails"
   ],
   "note": "what becomes of each name is proved for the files that C97_partial is about; that the names are kept is false: each gets longer, with the witness C109_fails"
  },
  {
   "property": "C110",
   "status": "partial",
   "theorems": [
    "Nappy.Props.C110_numbers_partial",
    "Nappy.Props.C110_names_partial",
    "Nappy.Props.C110_comments_partial",
    "Nappy.Props.C110_trip_kept",
    "Nappy.Props.C110_axes_fails",
    "Nappy.Props.C110_no_units_fails",
    "Nappy.Props.C110_trip_comments",
    "Nappy.Props.C110_comments_fails"
   ],
   "note": "proved for numbers, missing values and formats, and for the names of variables whose units hold no brackets; false for the names of axes, which get another blank with every trip. No comment is ever lost, but every trip adds at least three special comments for every main variable"
  },
  {
   "property": "C111",
   "status": "partial",
   "theorems": [
    "Nappy.Props.C111_partial",
    "Nappy.Props.C111_trips_partial",
    "Nappy.Props.C111_history",
    "Nappy.Props.C111_history_case",
    "Nappy.Props.C111_fails",
    "Nappy.Props.C111_mark_fails"
   ],
   "note": "proved for originator, organisation, source, mission and, where the first axis is not time, the first date; after any number of trips for originator, source and mission; false for the date of revision and the volume numbers, with the witness C111_fails; the old date of revision is still told by a line of the normal comments"
  },
  {
   "property": "C112",
   "status": "partial",
   "theorems": [
    "Nappy.Props.C112_same",
    "Nappy.Props.C112_variable_partial",
    "Nappy.Props.C112_axis",
    "Nappy.Props.C112_aux_partial",
    "Nappy.Props.C112_refused",
    "Nappy.Props.C112_text_fails",
    "Nappy.Props.C112_surplus_fails"
   ],
   "note": "proved for axes, and for main and auxiliary variables of headers with as many missing values and scale factors as names; false for the text variables of format 2160 (C112_text_fails) and for surplus missing values (C112_surplus_fails)"
  },
  {
   "property": "C113",
   "status": "partial",
   "theorems": [
    "Nappy.Props.C113_ids",
    "Nappy.Props.C113_written",
    "Nappy.Props.C113_exclude_partial",
    "Nappy.Props.C113_exclude_fails",
    "Nappy.Props.C113_letters_fails"
   ],
   "note": "proved for var_ids; false for exclude_vars, where it holds for names of one letter only"
  }
 ]
}