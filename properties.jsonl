{"id": "C01", "title": "Trailing brace annotation is removed, nothing else is", "statement": "When a header line is read, a trailing `{...}` annotation is removed exactly when the line is a non-empty newline-free prefix, then `{`, then text with no `{`, `}` or `^`, then `}`, then only white space. The prefix is kept byte for byte. Every other line is left unchanged.", "quantifier": "every character string used as a line", "why_tests_cant": "The rule is a backtracking regular expression. Tests try a few lines, but a wrong split can show only for particular mixes of braces, carets and newlines.", "anchors": ["nappy/utils/right_strip.py: rightStripCurlyBraces", "nappy/utils/text_parser.py: readItemFromLine, readItemsFromLine"]}
{"id": "C02", "title": "Fixed-count line: exactly n items or an error", "statement": "Reading a header line that must hold n items (n >= 1) returns exactly n values, in line order, or raises. It never returns fewer or more.", "quantifier": "every line, every n >= 1, every item conversion function", "why_tests_cant": "The set of lines is infinite; short and long lines with odd white space must all be rejected.", "anchors": ["nappy/utils/text_parser.py: readItemsFromLine"]}
{"id": "C03", "title": "Multi-line item reader returns exactly n items or raises", "statement": "Reading n items that may be spread over several lines returns the first n items found and raises if the lines hold surplus items on the line where the count is reached; it never silently accepts surplus values and never loses a value.", "quantifier": "every list of lines, every n, every layout of items over lines", "why_tests_cant": "The number of layouts is unbounded. Tests use one layout per format and miss lines that overshoot the count.", "anchors": ["nappy/utils/text_parser.py: readItemsFromUnknownLines"]}
{"id": "C04", "title": "Layout independence of multi-line records", "statement": "If the items of a record are laid out over any number of lines, blank lines and any white space between them included, with the record ending at the end of a line, the reader returns the same items and stops right after that line.", "quantifier": "every list of items and every way of breaking it over lines", "why_tests_cant": "Unbounded number of line breaks and white space choices.", "anchors": ["nappy/utils/text_parser.py: readItemsFromUnknownLines", "nappy/na_file/na_file_1001.py: _readData1"]}
{"id": "C05", "title": "Opening a file for reading always returns", "statement": "Opening any file for reading terminates: it returns a file object or raises. In particular a header cut short raises.", "quantifier": "every file content, including every truncation of a valid file", "why_tests_cant": "Non-termination cannot be observed by a test that must finish, and truncation points range over every prefix of every file.", "anchors": ["nappy/nappy_api.py: openNAFile", "nappy/utils/text_parser.py: readItemsFromUnknownLines", "nappy/na_file/na_file.py: _readVariablesHeaderSection"]}
{"id": "C06", "title": "FFI 1001 round trip", "statement": "A well-formed 1001 dictionary written to a file and read back gives the same header fields, comments, independent variable and variables; NLHEAD becomes the true header length and data values are those represented by the chosen float format.", "quantifier": "every well-formed 1001 dictionary (any NV >= 1, any number of records, any comments), every white-space delimiter, every float format giving one token per value", "why_tests_cant": "Needs all sizes, all names, all values, and all delimiters.", "anchors": ["nappy/na_file/na_file_1001.py: NAFile1001", "nappy/na_file/na_file.py: NAFile", "nappy/nappy_api.py: openNAFile, writeNAFile"]}
{"id": "C07", "title": "FFI 1010 round trip", "statement": "A well-formed 1010 dictionary (with or without auxiliary variables) written and read back gives the same header, X, A and V.", "quantifier": "every well-formed 1010 dictionary, delimiter and float format", "why_tests_cant": "All sizes and values, and the NAUXV = 0 branch.", "anchors": ["nappy/na_file/na_file_1010.py: NAFile1010"]}
{"id": "C08", "title": "FFI 1020 round trip", "statement": "A well-formed 1020 dictionary, with NVPM values of each variable per independent variable mark, written and read back gives the same header, X, A and V.", "quantifier": "every well-formed 1020 dictionary with NVPM >= 1, delimiter and float format", "why_tests_cant": "Blocks of NV*NVPM values must be regrouped correctly for every NV, NVPM and number of marks.", "anchors": ["nappy/na_file/na_file_1020.py: NAFile1020"]}
{"id": "C09", "title": "FFI 2010/3010/4010 round trip", "statement": "A well-formed dictionary for 2010, 3010 or 4010 written and read back gives the same dimensions, axes and nested arrays.", "quantifier": "every number of bounded dimensions, every dimension size, every NXDEF, all values", "why_tests_cant": "Nested arrays of every depth and shape; header axis counts interact with the reversal of the axis order.", "anchors": ["nappy/na_file/na_file_2010.py: readHeader, writeHeader, _readData2, writeData", "nappy/utils/list_manipulator.py: recursiveListPopulator, recursiveListWriter"]}
{"id": "C10", "title": "FFI 2110 round trip", "statement": "A well-formed 2110 dictionary (ragged: each mark has its own number of bounded values) written and read back gives the same header, X, A, NX and V.", "quantifier": "every list of marks with every number of values per mark", "why_tests_cant": "Ragged sizes are unbounded.", "anchors": ["nappy/na_file/na_file_2110.py: NAFile2110"]}
{"id": "C11", "title": "FFI 2160 round trip", "statement": "A well-formed 2160 dictionary with character independent and auxiliary variables written and read back gives the same header, X, A, NX and V.", "quantifier": "every list of marks, every split of auxiliary variables into numeric and character ones, every string value", "why_tests_cant": "String values and ragged sizes are unbounded.", "anchors": ["nappy/na_file/na_file_2160.py: NAFile2160"]}
{"id": "C12", "title": "FFI 2310 round trip", "statement": "A well-formed 2310 dictionary written and read back gives the same header, X, A, NX and V.", "quantifier": "every number of variables, marks and values per mark", "why_tests_cant": "The reader and writer order the values of a mark independently; a mismatch shows only for particular sizes.", "anchors": ["nappy/na_file/na_file_2310.py: _readData2, writeData"]}
{"id": "C13", "title": "Written NLHEAD is the number of header lines", "statement": "In every file written with a header, the first number on the first line equals the number of header lines, whatever NLHEAD the caller supplied, and the text after that many lines is exactly the data section.", "quantifier": "every dictionary that can be written, every NLHEAD value, any number of comments", "why_tests_cant": "Header length depends on NV, NAUXV and comment counts, all unbounded.", "anchors": ["nappy/na_file/na_file.py: _fixHeaderLength, _fixHeaderLengthNoHeader, readData"]}
{"id": "C14", "title": "FFI written is the FFI used to choose the reader", "statement": "The FFI found by readFFI (and so the reader class openNAFile selects) for a written file is the FFI of the dictionary that was written.", "quantifier": "every written file, any NLHEAD and FFI, any white-space delimiter", "why_tests_cant": "Ranges over all files and delimiters.", "anchors": ["nappy/utils/common_utils.py: readFFI, getNAFileClass", "nappy/nappy_api.py: openNAFile"]}
{"id": "C15", "title": "Writing does not change the caller's dictionary", "statement": "After a write the caller's NASA Ames dictionary holds the same values as before.", "quantifier": "every FFI and dictionary, header on or off", "why_tests_cant": "List aliasing: which values change depends on list contents (a one-element or palindromic list hides the change).", "anchors": ["nappy/na_file/na_file.py: write, _parseDictionary", "nappy/na_file/na_file_2010.py: writeHeader, writeData", "nappy/na_file/na_file_2110.py: writeHeader", "nappy/na_file/na_file_2160.py: writeHeader", "nappy/na_file/na_file_2310.py: writeHeader"]}
{"id": "C16", "title": "Writing the same dictionary again gives the same file", "statement": "Writing one dictionary to k files one after another gives k identical files.", "quantifier": "every dictionary and every number of repetitions", "why_tests_cant": "A history property over any number of writes; tests write once.", "anchors": ["nappy/na_file/na_file.py: write", "nappy/na_file/na_file_2010.py: writeHeader", "nappy/na_file/na_file_2110.py: writeHeader"]}
{"id": "C17", "title": "Write-once file object", "statement": "Over any sequence of open, write, read and close calls, at most one write to one file object succeeds; writes on a closed object or one opened for reading always raise and leave the file unchanged.", "quantifier": "every history of operations of any length", "why_tests_cant": "Histories are unbounded.", "anchors": ["nappy/na_file/na_file.py: NAFile.__init__, write, close, _open"]}
{"id": "C18", "title": "A failed write leaves no partial header and only whole lines", "statement": "If a write raises, or the process stops between file writes, the file holds nothing, or the complete header followed by whole data lines.", "quantifier": "every dictionary, every failing value position, every crash point between file writes", "why_tests_cant": "Crash points and failing positions are unbounded.", "anchors": ["nappy/na_file/na_file.py: write, _fixHeaderLength", "nappy/na_file/na_file_1001.py: writeHeader, writeData"]}
{"id": "C19", "title": "no_header output is the data section of the full output", "statement": "Writing with no_header=True produces exactly the text that follows the header in the file written with a header.", "quantifier": "every dictionary and FFI", "why_tests_cant": "Ranges over all dictionaries; depends on hidden list reversals in the header writer.", "anchors": ["nappy/na_file/na_file.py: write", "nappy/na_file/na_file_2010.py: writeHeader, writeData"]}
{"id": "C20", "title": "Annotation only prefixes lines", "statement": "Writing with annotation=True gives the same number of lines as without, and each annotated line is the plain line with an annotation and a delimiter in front; with annotation=False nothing is added.", "quantifier": "every dictionary and annotation table", "why_tests_cant": "All line contents, including those with unusual line-break characters.", "anchors": ["nappy/utils/common_utils.py: annotateLine, annotateLines, getAnnotation", "nappy/na_file/na_file_1001.py: writeHeader, writeData"]}
{"id": "C21", "title": "CSV output has the same cells", "statement": "Each CSV data row splits on commas into exactly the formatted values of that record, in order: the cells the white-space output has.", "quantifier": "every dictionary and every float format whose values contain no comma or blank", "why_tests_cant": "All sizes and values; trailing separators are trimmed by character class.", "anchors": ["nappy/nappy_api.py: convertNAToCSV", "nappy/na_file/na_file_1001.py: writeData"]}
{"id": "C22", "title": "readData terminates", "statement": "Reading the data section returns or raises on every file whose header was read.", "quantifier": "every header and every list of data lines", "why_tests_cant": "Non-termination cannot be tested; inputs are unbounded.", "anchors": ["nappy/na_file/na_file.py: readData", "nappy/na_file/na_file_1001.py: _readData1", "nappy/na_file/na_file_2110.py: _readData1, _readData2"]}
{"id": "C23", "title": "Blank lines inside the data are rejected, trailing ones ignored", "statement": "Reading data raises when a blank line is followed by a non-blank line, and otherwise reads the non-blank lines as if trailing blank lines were absent.", "quantifier": "every list of data lines", "why_tests_cant": "All placements of blank lines.", "anchors": ["nappy/na_file/na_file.py: _checkForBlankLines"]}
{"id": "C24", "title": "Data shape after reading", "statement": "After a successful readData of 1001/1010/1020 data every variable (and auxiliary variable) holds one value per independent variable mark (NVPM values for 1020), with as many variables as NV.", "quantifier": "every accepted data section", "why_tests_cant": "Invariant over any number of records, including malformed ones the reader accepts.", "anchors": ["nappy/na_file/na_file_1001.py: _readData1, _setupArrays", "nappy/na_file/na_file_1020.py: _readData1, _readData2"]}
{"id": "C25", "title": "No silent loss of data values", "statement": "If the data section is accepted, every number in it appears in X, A or V.", "quantifier": "every accepted data section", "why_tests_cant": "Requires all layouts of values over lines.", "anchors": ["nappy/utils/text_parser.py: readItemsFromUnknownLines", "nappy/na_file/na_file_1001.py: _readData1"]}
{"id": "C26", "title": "Reading the data again gives the same result", "statement": "Calling readData any number of times leaves the object in the state the first call produced.", "quantifier": "every file and every number of calls", "why_tests_cant": "A history property over repeated calls.", "anchors": ["nappy/na_file/na_file.py: readData", "nappy/na_file/na_file_2010.py: _setupArrays, _readData1", "nappy/na_file/na_file_2310.py: _setupArrays, _readData1"]}
{"id": "C27", "title": "Ignored leading lines only shift the header", "statement": "Opening a file with ignore_header_lines=k after k extra lines were put in front gives the same header fields, NLHEAD larger by k, and the same data.", "quantifier": "every k, every k lines, every file", "why_tests_cant": "k and the lines are unbounded.", "anchors": ["nappy/na_file/na_file.py: _readTopLine, _readCommonHeader, readData"]}
{"id": "C28", "title": "Reshaping a flat list into nested lists is the inverse of flattening", "statement": "Filling an array of given dimensions from a flat list of exactly the right length and flattening it again gives the list; filling reads the values in row-major order.", "quantifier": "every list of dimensions and every list of values", "why_tests_cant": "All depths and sizes.", "anchors": ["nappy/utils/list_manipulator.py: recursiveListPopulator, recursiveListWriter"]}
{"id": "C29", "title": "File format index choice is sound", "statement": "chooseFFI returns one of the supported format indexes or raises, and the returned index has the number of independent variables as its first digit.", "quantifier": "every dictionary", "why_tests_cant": "All combinations of keys and values of X, NX, NV, NAUXV, NVPM.", "anchors": ["nappy/utils/common_utils.py: chooseFFI", "nappy/nappy_api.py: openNAFile"]}
{"id": "C30", "title": "chooseFFI recovers the format of dictionaries that were read", "statement": "For the dictionary obtained by reading a file, chooseFFI returns the FFI of the file.", "quantifier": "every readable file of every FFI", "why_tests_cant": "All shapes of X, NX, A for every format.", "anchors": ["nappy/utils/common_utils.py: chooseFFI"]}
{"id": "C31", "title": "Derived output names replace the extension", "statement": "The default output name for a conversion is the input name with its extension replaced by the new one, or with the new one added if the input had none.", "quantifier": "every file name and extension", "why_tests_cant": "All names; lengths around the four-character window matter.", "anchors": ["nappy/utils/common_utils.py: getFileNameWithNewExtension", "nappy/nappy_api.py: convertNAToNC, convertNAToCSV, convertNCToNA"]}
{"id": "C32", "title": "Comma-separated override strings parse to the pairs written", "statement": "A comma-separated list of keys and values gives the mapping of each key to the value after it (the last one wins), and a list string gives its items; an odd number of items is rejected.", "quantifier": "every list of pairs of comma-free strings", "why_tests_cant": "Unbounded length; duplicates.", "anchors": ["nappy/utils/common_utils.py: makeDictFromCommaSepString, makeListFromCommaSepString"]}
{"id": "C33", "title": "Size-limited output partitions the records", "statement": "Splitting a long 1001 data set over several files keeps every record exactly once and in order; every file but the last has size_limit records; files are numbered 1..NVOL with NVOL their number; file names are distinct.", "quantifier": "every data length and every size limit >= 1", "why_tests_cant": "All lengths and limits, in particular exact multiples.", "anchors": ["nappy/nc_interface/xarray_to_na.py: _writeNAFileSubsetsWithinSizeLimit", "nappy/utils/common_utils.py: modifyNADictCopy"]}
{"id": "C34", "title": "The list of written files names each file once", "statement": "The list of output names returned by a conversion names every written file exactly once.", "quantifier": "every number of output dictionaries, data lengths and size limits", "why_tests_cant": "All numbers of volumes.", "anchors": ["nappy/nc_interface/xarray_to_na.py: writeNAFiles, _writeNAFileSubsetsWithinSizeLimit, constructNAFileNames"]}
{"id": "C35", "title": "Splitting terminates for every size limit", "statement": "A size-limited write returns or raises for every integer limit.", "quantifier": "every data length and every integer size limit", "why_tests_cant": "Non-termination cannot be tested.", "anchors": ["nappy/nc_interface/xarray_to_na.py: _writeNAFileSubsetsWithinSizeLimit"]}
{"id": "C36", "title": "Output file names are distinct", "statement": "The file names built for n output dictionaries are n distinct names; a single dictionary gets the name asked for.", "quantifier": "every base name and every n", "why_tests_cant": "All names and counts.", "anchors": ["nappy/nc_interface/xarray_to_na.py: constructNAFileNames"]}
{"id": "C37", "title": "Overrides touch only permitted keys", "statement": "Overriding header items changes only keys of the permitted list present in the overrides, and afterwards the comment counts equal the lengths of the comment lists.", "quantifier": "every dictionary and every set of overrides", "why_tests_cant": "All key sets.", "anchors": ["nappy/nc_interface/xarray_to_na.py: writeNAFiles"]}
{"id": "C38", "title": "Merging comments keeps every line", "statement": "Merging new comment lines into existing ones (insert or append) keeps every line of both in order, with the section start marker first and the end marker last when the existing comments had them.", "quantifier": "every pair of comment lists and every pair of markers", "why_tests_cant": "All positions and counts of markers.", "anchors": ["nappy/nc_interface/xarray_to_na.py: _cleanWrapComments"]}
{"id": "C39", "title": "Column headers keep counts consistent", "statement": "Adding column headers to the normal comments keeps the declared number of comment lines equal to the actual one, keeps all existing lines, and names X first and then each variable in order.", "quantifier": "every dictionary and delimiter", "why_tests_cant": "All numbers of variables and comments.", "anchors": ["nappy/nc_interface/xarray_to_na.py: _updateWithColumnHeaders"]}
{"id": "C40", "title": "NetCDF to NASA Ames conversion terminates", "statement": "The loop that keeps collecting variables until none is left ends for every set of input variables.", "quantifier": "every list of variables", "why_tests_cant": "Termination over any number of passes.", "anchors": ["nappy/nc_interface/xarray_to_na.py: XarrayDatasetToNA.convert", "nappy/nc_interface/na_content_collector.py: _analyseVariables"]}
{"id": "C41", "title": "Every variable reaches an output file", "statement": "Each input variable is, in exactly one pass, a main variable, an auxiliary variable or a singleton; none is lost and none is written twice.", "quantifier": "every list of variables and every axis structure", "why_tests_cant": "All interactions between axes of any number of variables.", "anchors": ["nappy/nc_interface/na_content_collector.py: _analyseVariables, _reorderVarsIfPreviouslyNA"]}
{"id": "C42", "title": "Variable order recorded in NetCDF is restored", "statement": "Variables carrying a stored NASA Ames variable number come out in increasing number, followed by the others in their given order, and none is lost.", "quantifier": "every list of variables and numbers", "why_tests_cant": "All permutations and collisions.", "anchors": ["nappy/nc_interface/na_content_collector.py: _reorderVarsIfPreviouslyNA"]}
{"id": "C43", "title": "The chosen FFI fits the data and the request", "statement": "The file format index chosen for collected variables has the right number of independent variables and equals the requested one when that is possible; an impossible request raises.", "quantifier": "every collected state and every requested index", "why_tests_cant": "All combinations.", "anchors": ["nappy/nc_interface/na_content_collector.py: _decideFileFormatIndex"]}
{"id": "C44", "title": "Axes judged identical are identical", "statement": "Two axes are treated as the same only if they have the same identity and the same coordinate values.", "quantifier": "every pair of axes", "why_tests_cant": "All lengths and positions of differing values.", "anchors": ["nappy/nc_interface/xarray_utils.py: areAxesIdentical"]}
{"id": "C45", "title": "Regular subset detection is sound", "statement": "An axis reported as a regularly spaced subset of another with factor n consists of every n-th value of the other.", "quantifier": "every pair of axes", "why_tests_cant": "All lengths, factors, spacings.", "anchors": ["nappy/nc_interface/xarray_utils.py: isAxisRegularlySpacedSubsetOf, get_interval"]}
{"id": "C46", "title": "Abbreviated uniform axes are rebuilt exactly", "statement": "An evenly spaced axis stored as its first values and an increment is rebuilt with all its values when read back and normalised.", "quantifier": "every evenly spaced axis of any length (exact arithmetic)", "why_tests_cant": "All lengths.", "anchors": ["nappy/nc_interface/na_content_collector.py: _appendAxisDefinition", "nappy/na_file/na_file_2010.py: _normalizeIndVars"]}
{"id": "C47", "title": "Variable name and units split", "statement": "A name written as `name (units)` is split back into that name and those units; a name without brackets has empty units.", "quantifier": "every name on one line and every non-empty units string on one line without brackets", "why_tests_cant": "Backtracking regular expression over all strings, names containing brackets included.", "anchors": ["nappy/na_file/na_core.py: _attemptVarAndUnitsMatch", "nappy/nc_interface/xarray_utils.py: getBestName"]}
{"id": "C48", "title": "Dictionary view of a file object", "statement": "getNADict returns exactly the items that have a value; setting a dictionary and getting it back returns it; indexing returns the stored value.", "quantifier": "every set of items", "why_tests_cant": "All key sets, including unknown keys.", "anchors": ["nappy/na_file/na_core.py: getNADict, setNADict, __getitem__"]}
{"id": "C49", "title": "A file compares equal to itself", "statement": "Comparing a NASA Ames file with itself reports no difference.", "quantifier": "every file content and option (number-clever, approximate)", "why_tests_cant": "All contents.", "anchors": ["nappy/utils/compare_na.py: compareSections, compNAFiles"]}
{"id": "C50", "title": "Files reported equal are equal", "statement": "When a comparison reports two files as the same, their header lines and data lines agree (up to numeric spelling when number-clever is on).", "quantifier": "every pair of files", "why_tests_cant": "All pairs; differences in length and in only one section.", "anchors": ["nappy/utils/compare_na.py: compareSections, compNAFiles"]}
{"id": "C51", "title": "Approximate comparison flags differences above the threshold", "statement": "With approximate comparison, two numbers whose ratio is off by more than the threshold are reported as different.", "quantifier": "every pair of numbers and every threshold", "why_tests_cant": "All number pairs, sign and zero cases.", "anchors": ["nappy/utils/compare_na.py: compareSections"]}
{"id": "C52", "title": "Comments survive the trip to NetCDF attributes and back", "statement": "Special and normal comments of a NASA Ames file mapped to a global comment attribute and collected back give the same two lists.", "quantifier": "every pair of comment lists", "why_tests_cant": "All contents and marker positions.", "anchors": ["nappy/nc_interface/na_to_xarray.py: _mapNACommentsToGlobalAttributes", "nappy/nc_interface/na_content_collector.py: _defineNAComments, _defineNAGlobals"]}
{"id": "C53", "title": "Configuration lookups do not depend on callers", "statement": "The configuration returned is that of the file asked for, and changing the returned dictionary does not affect later callers.", "quantifier": "every history of lookups and mutations", "why_tests_cant": "Histories are unbounded; the cache is process-wide.", "anchors": ["nappy/utils/parse_config.py: getConfigDict, makeConfigDict"]}
{"id": "C54", "title": "API options reach the writer", "statement": "Options given to the conversion functions (delimiter, no_header, output name, annotation) are the ones the writer uses.", "quantifier": "every combination of options", "why_tests_cant": "All combinations.", "anchors": ["nappy/nappy_api.py: convertNAToCSV, convertNCToCSV, convertNCToNA"]}
{"id": "C55", "title": "Command-line options are honoured", "statement": "Every option declared by a command-line tool is accepted and reaches the conversion.", "quantifier": "every argument list", "why_tests_cant": "All argument lists.", "anchors": ["nappy/script/nc2na.py: parseArgs", "nappy/script/nc2csv.py: parseArgs", "nappy/script/na2nc.py: parseArgs"]}
{"id": "C56", "title": "A write repeated after a failure starts afresh", "statement": "If write raises, the caller corrects the dictionary and calls write again on the same object, the file holds what a single write of the corrected dictionary gives.", "quantifier": "every dictionary, every failure position, every later history", "why_tests_cant": "Failure positions and histories are unbounded.", "anchors": ["nappy/na_file/na_file.py: write"]}
{"id": "C57", "title": "Metadata accessors agree with the header", "statement": "getVariables, getIndependentVariables and getAuxVariables return one entry per variable of the kind, in header order, with the name, units, missing value and scale factor that the header declares for it.", "quantifier": "every file object of every format", "why_tests_cant": "All numbers of variables, names and formats.", "anchors": ["nappy/na_file/na_core.py: getVariable, getVariables, getIndependentVariables, getAuxVariable, getAuxVariables"]}
{"id": "C58", "title": "Writing converted data again gives the same files", "statement": "Calling writeNAFiles a second time on the same converter, with the same options, writes the same files.", "quantifier": "every converted data set, configuration and option", "why_tests_cant": "All histories of calls; the dictionaries are shared between calls and changed by them.", "anchors": ["nappy/nc_interface/xarray_to_na.py: writeNAFiles, _updateWithColumnHeaders"]}
{"id": "C59", "title": "Converted variables give a dictionary that can be written and read", "statement": "The dictionary made from chosen variables describes a well-formed file of the chosen format, whose axes, data, missing values and names are those of the variables in order; so the file written from it reads back as these data.", "quantifier": "every set of variables whose data have the shape of their axes and whose texts fit on header lines, every requested format", "why_tests_cant": "All numbers, shapes and orders of variables, all formats, all values.", "anchors": ["nappy/nc_interface/na_content_collector.py: collectNAContent, _defineNAVars, _defineNAAuxVars, _appendAxisDefinition"]}
{"id": "C60", "title": "Auxiliary variables stay auxiliary", "statement": "Variables that were auxiliary variables in a NASA Ames file are written as auxiliary variables when converted back, and format 1010 can be produced.", "quantifier": "every set of variables and every requested format", "why_tests_cant": "All combinations of variables.", "anchors": ["nappy/nc_interface/na_content_collector.py: _analyseVariables, _decideFileFormatIndex"]}
{"id": "C61", "title": "Header items come from the global attributes", "statement": "The attributes source, title, institution, file_number_in_set and total_files_in_set of the source become SNAME, MNAME, ONAME and ORG, IVOL and NVOL of the converted dictionary; a missing attribute sets nothing.", "quantifier": "every list of attributes in every order, every set of variables", "why_tests_cant": "All attribute lists, orders and texts.", "anchors": ["nappy/nc_interface/na_content_collector.py: _defineNAGlobals, _defineGeneralHeader"]}
{"id": "C62", "title": "Header items survive the trip to NetCDF attributes and back", "statement": "Originator, organisation, source, mission, dates and volume numbers of a NASA Ames file, put into global attributes by the conversion and collected again, give the same header items.", "quantifier": "every file of a format that can be converted, every list of further attributes, every set of variables written", "why_tests_cant": "All texts in the header and all attribute lists; one attribute holds two of the names.", "anchors": ["nappy/nc_interface/na_to_xarray.py: _mapNACommentsToGlobalAttributes", "nappy/nc_interface/na_content_collector.py: _defineNAGlobals, _defineGeneralHeader"]}
{"id": "C63", "title": "Global attributes given by the caller are kept", "statement": "The global attributes that the caller adds to a conversion come first in the result, in their order and with the values given; those from the file follow.", "quantifier": "every list of attributes and every file", "why_tests_cant": "All attribute lists, including names that the conversion sets itself.", "anchors": ["nappy/nc_interface/na_to_xarray.py: _mapNACommentsToGlobalAttributes"]}
{"id": "C64", "title": "Every variable of the file is converted, with its values", "statement": "Converting a NASA Ames file gives one variable per main variable and one per auxiliary variable, in order, each with the units and missing value of the header, on the axes of the file, with the stored values multiplied by the scale factor; missing values stay missing values.", "quantifier": "every file of a format that can be converted", "why_tests_cant": "All numbers of variables, axes and values.", "anchors": ["nappy/nc_interface/na_to_xarray.py: convert, _convertNAToXarrayVariable, _convertNAAuxToXarrayVariable, _convertXarrayAxes"]}
{"id": "C65", "title": "The chosen variables are converted, and only these", "statement": "A list of numbers or of names given to the conversion selects these variables in this order; a name that the file does not have is an error.", "quantifier": "every list of numbers or names, every file", "why_tests_cant": "All lists and names.", "anchors": ["nappy/nc_interface/na_to_xarray.py: _convertXarrayVariables, _convertXarrayAuxVariables"]}
{"id": "C66", "title": "Every well-formed file can be converted", "statement": "The conversion of a well-formed NASA Ames file of any format succeeds.", "quantifier": "every well-formed file, every list of attributes, units given or not", "why_tests_cant": "All files; names of axes are changed and may coincide.", "anchors": ["nappy/nc_interface/na_to_xarray.py: NADictToXarrayObjects, convert"]}
{"id": "C67", "title": "NASA Ames to NetCDF variables and back keeps the data", "statement": "Converting a NASA Ames file to variables and converting these variables to NASA Ames again gives one file with the same independent variable values, the same variables, values and missing values.", "quantifier": "every file of the formats 1001, 1010, 2010, 3010 and 4010 whose scale factors are one", "why_tests_cant": "All sizes, names and values; the second conversion picks and sorts the variables by itself.", "anchors": ["nappy/nc_interface/na_to_xarray.py: convert", "nappy/nc_interface/xarray_to_na.py: convert", "nappy/nc_interface/na_content_collector.py: _analyseVariables, collectNAContent"]}
{"id": "C68", "title": "Comparison does not depend on the order of the files", "statement": "Comparing A with B and comparing B with A find differences at the same line numbers.", "quantifier": "every pair of files, delimiter and threshold", "why_tests_cant": "All pairs; the approximate comparison divides by one of the two numbers.", "anchors": ["nappy/utils/compare_na.py: compareSections, compNAFiles"]}
{"id": "C69", "title": "The comparison of the public API compares", "statement": "nappy.compareNA reports for two files what the comparison of their lines finds.", "quantifier": "every pair of files and every option", "why_tests_cant": "All files.", "anchors": ["nappy/nappy_api.py: compareNA", "nappy/utils/compare_na.py: compareNA"]}
{"id": "C70", "title": "Comparing directories reports exactly the differences", "statement": "The comparison of two directory trees reports each file that differs or is missing on one side, and nothing else.", "quantifier": "every pair of directory trees, every list of exclusions", "why_tests_cant": "Trees are unbounded in depth and width.", "anchors": ["nappy/utils/compare.py: compDirs, compFiles"]}
{"id": "C71", "title": "nc2csv writes comma-separated files", "statement": "Every file written by the tool nc2csv uses a comma as delimiter.", "quantifier": "every list of arguments and every NetCDF file", "why_tests_cant": "All argument lists; the delimiter is appended to the arguments of another tool.", "anchors": ["nappy/script/nc2csv.py: nc2csv, __main__", "setup.py: entry_points"]}
{"id": "C72", "title": "Copying a file through its dictionary reproduces it", "statement": "Reading a file, taking its dictionary and writing that dictionary to a new file writes what the file object itself would write. For a file written by nappy the copy is the same text, apart from white space at the ends of comment lines, and copying the copy changes nothing.", "quantifier": "every file that can be read; every well-formed dictionary of every format", "why_tests_cant": "All files of all formats; reading, the dictionary and writing all take part.", "anchors": ["nappy/nappy_api.py: openNAFile", "nappy/na_file/na_file.py: getNADict, setNADict, _parseDictionary, write"]}
{"id": "C73", "title": "Names of variables carry their units once", "statement": "In the dictionaries made from variables each variable and axis is called by its long name, else its standard name, else its title, else its identifier, followed by its units in brackets. Units that the name holds already are moved to the end, not repeated. Reading the name gives the same name and units.", "quantifier": "every variable: all attributes, identifiers and units", "why_tests_cant": "All texts; the name is searched for its units and edited.", "anchors": ["nappy/nc_interface/xarray_utils.py: getBestName", "nappy/nc_interface/na_content_collector.py: _defineNAVars"]}
{"id": "C74", "title": "The spacing declared for an axis is its spacing", "statement": "The dictionary made from variables declares for every axis the common difference of its neighbouring values, or zero if there is none. A further axis for which not all points are given is evenly spaced.", "quantifier": "every list of variables, all sizes and values of axes, every format", "why_tests_cant": "All lengths of axes; an unevenness at the far end must be found.", "anchors": ["nappy/nc_interface/na_content_collector.py: _defineNAVars, _appendAxisDefinition", "nappy/nc_interface/xarray_utils.py: get_interval"]}
{"id": "C75", "title": "What convertNCToNA writes can be read back", "statement": "convertNCToNA writes one file for each group of variables it forms, or several with blocks of records for long 1001 data if there is a size limit, without an error, and returns the names. Reading each file gives the values of the variables of the group (as far as the number format keeps them, missing values in place of NaN), their missing values, names, auxiliary variables and the values of the first axis.", "quantifier": "every NetCDF file, every selection of variables, overriding items, requested format, size limit >= 1, delimiter of white space and number format; files with a header and without annotation", "why_tests_cant": "All sizes, numbers of variables and texts; selection, analysis, collection, overriding, writing and reading all take part.", "anchors": ["nappy/nappy_api.py: convertNCToNA", "nappy/nc_interface/nc_to_na.py: NCToNA", "nappy/nc_interface/xarray_to_na.py: convert, writeNAFiles", "nappy/nc_interface/na_content_collector.py: collectNAContent"]}
{"id": "C76", "title": "convertNCToNA converts the variables asked for", "statement": "The variables handed to the conversion are exactly those of the NetCDF file whose identifiers were listed (all if no list is given), that are not named in exclude_vars (blanks, underscores and capitals apart), and that are not bounds of another variable, in the order of the file. Identifiers the file does not have are passed over. Every value of a main or auxiliary variable in the files written belongs to such a variable.", "quantifier": "every NetCDF file, every list of identifiers and of names to leave out, every requested format", "why_tests_cant": "All files and lists; a variable could come back through the analysis of axes, auxiliary or singleton variables.", "anchors": ["nappy/nc_interface/nc_to_na.py: _readXarrayFile", "nappy/utils/common_utils.py: fuzzy_contains", "nappy/nc_interface/xarray_to_na.py: convert", "nappy/nc_interface/na_content_collector.py: analyseVariables"]}
{"id": "C77", "title": "convertNAToNC keeps every variable", "statement": "The NetCDF file made from a NASA Ames file has one variable for each main and auxiliary variable of the file, in their order, each with its values.", "quantifier": "every NASA Ames file and all arguments", "why_tests_cant": "All names and numbers of variables; names that differ in the NASA Ames file must differ in the NetCDF file.", "anchors": ["nappy/nappy_api.py: convertNAToNC", "nappy/nc_interface/na_to_nc.py: NAToNC, writeNCFile", "nappy/nc_interface/na_to_xarray.py: convert"]}
{"id": "C78", "title": "Variables get names that NetCDF tools can use, or those the caller gives", "statement": "The identifier of a variable made from a NASA Ames file is its name without the units, in lower case, with white space and troublesome characters replaced by underscores; a good name is kept. A name of 64 characters or more is replaced by a number. If the caller gives another name for this identifier, that is used, whatever the capitals.", "quantifier": "every name of a main or auxiliary variable and every list of names given by the caller", "why_tests_cant": "All texts and lists of names.", "anchors": ["nappy/nc_interface/na_to_xarray.py: _convertNAToXarrayVariable, _convertNAAuxToXarrayVariable", "nappy/utils/common_utils.py: safe_name"]}
{"id": "C79", "title": "getXarrayVariableFromNA gives the variable asked for", "statement": "Asking for one variable by its number, by its number as a text, or by its name in the file gives what reading all variables gives for it.", "quantifier": "every NASA Ames file, every number and name", "why_tests_cant": "All files, numbers and names.", "anchors": ["nappy/nappy_api.py: getXarrayVariableFromNA, readXarrayObjectsFromNA", "nappy/nc_interface/na_to_xarray.py: convert"]}
{"id": "C80", "title": "A header is read exactly as its format lays it out", "statement": "Opening a file succeeds exactly if the file begins with a header in the layout of its format (the lines of the sections one after the other, each with the number of values or names that the counts in the header announce), and the object then holds what stands on these lines, each item in its place.", "quantifier": "every text, every number of ignored lines and all nine formats", "why_tests_cant": "All texts, also those that nappy did not write; every count can move every later section.", "anchors": ["nappy/na_file/na_file.py: _readTopLine, _readCommonHeader, _readVariablesHeaderSection, _readAuxVariablesHeaderSection, _readCharAuxVariablesHeaderSection, _readComments", "nappy/na_file/na_file_1001.py: readHeader", "nappy/na_file/na_file_2010.py: readHeader", "nappy/na_file/na_file_2160.py: readHeader", "nappy/nappy_api.py: openNAFile"]}
{"id": "C81", "title": "Opening a file depends on its header only", "statement": "If a file can be opened, every file that begins with the same header lines can be opened too and gives the same object, whatever follows: other data, damaged data, or nothing.", "quantifier": "every header of every format and every text after it", "why_tests_cant": "All texts that can follow a header.", "anchors": ["nappy/nappy_api.py: openNAFile", "nappy/na_file/na_file.py: __init__, _readCommonHeader", "nappy/utils/text_parser.py: readItemsFromUnknownLines"]}
{"id": "C82", "title": "The data begin where the header ends", "statement": "readData reads exactly the lines after the header; if the number NLHEAD in the file is not the number of header lines, an exception is raised.", "quantifier": "every header of every format and every text after it", "why_tests_cant": "All numbers of header lines; a wrong NLHEAD can give plausible data.", "anchors": ["nappy/na_file/na_file.py: readData, _readTopLine"]}
{"id": "C83", "title": "Data are read exactly as the format lays them out", "statement": "readData succeeds exactly if the lines after the header are records in the layout of the format (for each mark its auxiliary variables, then the other variables in the numbers the header and the record announce), with blank lines at the end only. Every value is then found under its mark and its variable, and no value is dropped.", "quantifier": "every text, every header of all nine formats", "why_tests_cant": "All texts, also those that nappy did not write; every number of marks, variables and points, and every way to spread a record over lines.", "anchors": ["nappy/na_file/na_file.py: readData, _checkForBlankLines", "nappy/na_file/na_file_1001.py: _readData1", "nappy/na_file/na_file_1010.py: _readData1, _readData2", "nappy/na_file/na_file_1020.py: _readData2", "nappy/na_file/na_file_2010.py: _readData1, _readData2", "nappy/na_file/na_file_2110.py: _readData1, _readData2", "nappy/na_file/na_file_2160.py: _readData1", "nappy/na_file/na_file_2310.py: _readData1, _readData2"]}
{"id": "C84", "title": "Records added to a file are added to its data", "statement": "If two files with the same header can be read, the file with this header and the data lines of both can be read, and its data are those of the first followed by those of the second, for every mark, auxiliary and other variable.", "quantifier": "every header of every format with a number of character variables that is not negative, all data lines without blank ones in the first file", "why_tests_cant": "All sequences of records; something kept from one record to the next could change the result.", "anchors": ["nappy/na_file/na_file.py: readData", "nappy/na_file/na_file_2010.py: _readData1, _readData2", "nappy/na_file/na_file_2110.py: _readData1, _readData2"]}
{"id": "C85", "title": "A file that is cut off is refused or gives its first records", "statement": "If lines are missing at the end of the data of a file that can be read, readData raises IndexError, or the data are the first records of the whole file, unchanged.", "quantifier": "every file of every format with a number of character variables that is not negative, every place after a data line where it can be cut", "why_tests_cant": "All files and all places; values of an incomplete record could be taken for those of a complete one.", "anchors": ["nappy/na_file/na_file.py: readData", "nappy/utils/text_parser.py: readItemsFromUnknownLines", "nappy/na_file/na_file_2160.py: _readData1"]}
{"id": "C86", "title": "The parts of a header can be edited one by one", "statement": "If a file can be opened and one replaces its first lines, its section of main variables, its section of auxiliary variables or its comments by any other lines in the right layout (with as many variables or comment lines as one likes, but the same format), the file can still be opened and the object differs in just the replaced parts.", "quantifier": "for all formats, all texts that can be opened, all replacements of these parts in the layout of their section, and all lines after the header", "why_tests_cant": "A test edits one line of one sample header; the claim is about every section with every number of entries, in all nine formats.", "anchors": ["nappy/na_file/na_file.py:144-199", "nappy/na_file/na_file.py:215-326", "nappy/nappy_api.py:145-169"]}
{"id": "C87", "title": "Names, units, scale factors and comments do not influence the data", "statement": "The data read from a file are determined by its data lines and by the numbers of variables and values that the header gives. Replacing the header by another one with the same numbers (other names, units, scale factors, missing values, dates, comments, and the NLHEAD that goes with it) gives the same data.", "quantifier": "for all formats, all headers with the same numbers of variables and values, and all data lines that can be read", "why_tests_cant": "Tests read files with one header each; independence of the rest of the header is a statement about pairs of files.", "anchors": ["nappy/na_file/na_file.py:328-350", "nappy/na_file/na_file_1001.py:54-82", "nappy/na_file/na_file_2310.py:56-90"]}
{"id": "C88", "title": "NetCDF variables through a NASA Ames file and back keep the data", "statement": "Convert a NetCDF file with `convertNCToNA`, then each NASA Ames file that this wrote with `convertNAToNC`. The NetCDF files made in the second step together have the variables of the first one: the same values in the same arrangement, up to what `float_format` keeps, with gaps (NaN) filled by the missing value; the same missing values, units and axis values.", "quantifier": "for all NetCDF contents, options, number formats and overriding items, and all variables of every file written", "why_tests_cant": "both conversions have their own tests on a few sample files, mostly checking that something is written; whether they are inverse to each other depends on every combination of axes, formats, missing values and names", "anchors": ["nappy/nappy_api.py:172-211", "nappy/nappy_api.py:239-295", "nappy/nc_interface/na_content_collector.py:30-798", "nappy/nc_interface/na_to_xarray.py:63-452", "nappy/nc_interface/xarray_to_na.py:52-507"]}
{"id": "C89", "title": "Numbers in a file are as precise as float_format promises", "statement": "With `float_format` `%w.pf`, every finite number is written as a decimal number at most half a unit of the p-th decimal away; with `%w.pe` and `%w.pg`, at most five units behind the last digit kept away, relatively. Numbers that have no more digits are written exactly; `%s`, infinities and NaN lose nothing. Every number written is one word that `float` can read, so all files can be read back; with floats precise enough for the digits kept, writing the numbers that were read gives the same text again.", "quantifier": "for all widths, precisions, flags and numbers; all formats with the conversions f, F, e, E, g, G and s, except `%s` with a precision (it cuts numbers off) and zero padding together with infinities or NaN (unreadable)", "why_tests_cant": "a test formats a few numbers; rounding up to another power of ten, trailing zeros, the switch between both notations of `%g` and ties have infinitely many cases", "anchors": ["nappy/config/nappy.ini:5", "nappy/na_file/na_file.py:94-104", "nappy/na_file/na_file_1001.py:84-104"]}
{"id": "C90", "title": "A dictionary can be written exactly when its counts fit its lists", "statement": "Writing a NASA Ames dictionary succeeds exactly if every count of the header (NV, NIV, NAUXV, NAUXC, NX, NXDEF, NVPM, NSCOML, NNCOML) fits the lengths of the lists it counts, the data have a value wherever the counts say so, and the four texts of the first lines are neither empty nor a lone quote; otherwise IndexError or TypeError is raised. The delimiter, the number format and annotation have no influence on this. Without a header only the counts of the data matter.", "quantifier": "every dictionary of all nine formats, all lengths, with and without header, all delimiters, number formats and annotations", "why_tests_cant": "a test writes dictionaries that are right, and perhaps a wrong one; the claim is about every combination of counts and lengths, in both directions", "anchors": ["nappy/na_file/na_file.py:201-326", "nappy/na_file/na_file_1001.py:40-104", "nappy/na_file/na_file_2010.py:54-150", "nappy/na_file/na_file_2160.py:43-160", "nappy/utils/text_parser.py"]}
{"id": "C91", "title": "Every file that can be read can be written again", "statement": "If a file can be opened and its data can be read, the object (or its dictionary) can be written to a new file without an exception, with any delimiter, number format and annotation.", "quantifier": "every text, every number of ignored lines, all nine formats", "why_tests_cant": "all texts, also those that nappy did not write; the reader and the writer are separate pieces of code for each format", "anchors": ["nappy/nappy_api.py:145-169", "nappy/na_file/na_file.py:144-350", "nappy/na_file/na_file_2010.py:54-150", "nappy/na_file/na_file_2160.py:43-160"]}
{"id": "C92", "title": "Variables share a file only if they share their axes", "statement": "In every NASA Ames file that a conversion from NetCDF forms, all main variables have the same axes (names, units and values, in the same order) and the auxiliary variables have the first of them; every variable with these axes is taken. After the way back to NetCDF each variable has the values of its own axes.", "quantifier": "every list of variables, all passes of a conversion, all numbers of axes", "why_tests_cant": "which variables fit together depends on all of them: on the largest one, on singletons of the same name and on the axes of each; tests have one file with few variables", "anchors": ["nappy/nc_interface/na_content_collector.py:113-240", "nappy/nc_interface/xarray_utils.py:105-170", "nappy/nc_interface/xarray_to_na.py:72-130"]}
{"id": "C93", "title": "Converted numbers are as precise as float_format promises", "statement": "Reading the files that `convertNCToNA` writes gives, for every value of every main and auxiliary variable and of the unbounded axis, a number that has the sign of the original and differs by at most half a unit of the p-th decimal (`%.pf`), or relatively by at most five units behind the last digit kept (`%.pe`, `%.pg`), plus the error of the float next to a decimal number. Infinities lose nothing. The missing values in the header are exact.", "quantifier": "all NetCDF contents and options, all groups of variables whose file can be read (C75), all number formats that give readable numbers, all floats", "why_tests_cant": "the precision of the whole way depends on the converter, the writer, the number format and the reader together, for all numbers and formats", "anchors": ["nappy/nappy_api.py:239-295", "nappy/nc_interface/na_content_collector.py:334-476", "nappy/na_file/na_file_1001.py:84-104", "nappy/config/nappy.ini:5"]}
{"id": "C94", "title": "Gaps in the data are gaps in the file", "statement": "In every file that `convertNCToNA` writes, a value equals the missing value that the header gives for its variable exactly where the variable has a gap (NaN).", "quantifier": "all NetCDF contents and options, all variables and places, all number formats", "why_tests_cant": "a test has one missing value and one number format; that they fit together depends on the digits of the missing value and on all values near it", "anchors": ["nappy/nc_interface/na_content_collector.py:334-356", "nappy/nc_interface/na_content_collector.py:461-476", "nappy/nc_interface/xarray_utils.py:68-83", "nappy/nc_interface/xarray_utils.py:306-331", "nappy/na_file/na_file_1001.py:84-104"]}
{"id": "C95", "title": "Evenly spaced axes are recognised, and only these", "statement": "`isUniformlySpaced` returns True exactly for axes whose neighbours all have the same difference, and raises IndexError for an empty axis only. So format 2310, which stores only first value, increment and number of values of the second axis, is chosen only for axes that these three numbers describe.", "quantifier": "all lists of numbers; all sets of variables for the choice of the format", "why_tests_cant": "all axes of all lengths; rounding matters", "anchors": ["nappy/nc_interface/xarray_utils.py:93-106", "nappy/nc_interface/na_content_collector.py:165-172"]}
{"id": "C96", "title": "Different data sets are written to different files", "statement": "If two well-formed data sets are written to the same text, with the same number format and any delimiters, they agree in the format, all header items, all data values as far as the number format tells them apart, and the comments up to white space at their ends. Data sets that agree in this way give the same text.", "quantifier": "all pairs of well-formed data sets of all nine formats that survive being read (C06-C12), all delimiters of white space and readable number formats", "why_tests_cant": "a statement about all pairs of data sets, also of different formats and sizes: no two of them may collide", "anchors": ["nappy/na_file/na_file.py:201-326", "nappy/na_file/na_file_1001.py:40-104", "nappy/na_file/na_file_2010.py:54-150", "nappy/nappy_api.py:145-169"]}
{"id": "C97", "title": "A file survives the way to NetCDF and back", "statement": "If `convertNAToNC` makes a NetCDF file of a NASA Ames file and `convertNCToNA` converts this back, then one NASA Ames file is written, and reading it gives the same format, the same number of main and auxiliary variables, their values up to the number format, the same missing values and axes.", "quantifier": "all NASA Ames files that the converter accepts, all number formats, all ways in which the NetCDF library may hand the variables back (masked missing values, coordinate variables between them, attributes of numpy types)", "why_tests_cant": "the way goes through reader, both converters and writer; every grouping of variables and every format matters", "anchors": ["nappy/nappy_api.py:172-295", "nappy/nc_interface/na_to_nc.py:32-112", "nappy/nc_interface/na_to_xarray.py:98-452", "nappy/nc_interface/nc_to_na.py:34-102", "nappy/nc_interface/na_content_collector.py:82-610", "nappy/nc_interface/xarray_utils.py:25-170"]}
{"id": "C98", "title": "Configuration files mean what they say", "statement": "`getConfigDict()`, `getDefault(item)`, `getDebug()`, the annotations and the local attributes give exactly the sections, options and values that stand in the files: names in their spelling, `=` or `:` as delimiter, values over several indented lines, comments and blank lines passed over, every `__space__` in the main file a blank, texts with `&` as tuples. This holds whatever was looked up before, and whatever callers did to the dictionaries they got (C53).", "quantifier": "all texts of configuration files laid out in sections with different names, all histories of lookups", "why_tests_cant": "a test has one file; layouts, comments, continuation lines and replacements can be combined without end", "anchors": ["nappy/utils/parse_config.py:29-137", "nappy/utils/common_utils.py:139-152", "nappy/config/nappy.ini:1-48"]}
{"id": "C99", "title": "Column headings can be switched off in the configuration", "statement": "If `add_column_headers` is `False` in section `main` of the configuration, no column headings are added to converted files; if it is `True`, they are.", "quantifier": "all configuration files and all values of this option", "why_tests_cant": "tests only run with the shipped file, where it is True", "anchors": ["nappy/nc_interface/xarray_to_na.py:35", "nappy/nc_interface/xarray_to_na.py:308-309", "nappy/config/nappy.ini:7"]}
{"id": "C100", "title": "Arrays of any number of dimensions become lists", "statement": "`arrayToList(array, [])` returns the values of the array as lists in lists, and `listOfListsCreator([], dims)` returns empty lists in lists with the given lengths.", "quantifier": "all arrays of all numbers of dimensions; all lists of lengths", "why_tests_cant": "no test calls these functions; a test would have arrays of one or two shapes", "anchors": ["nappy/utils/list_manipulator.py:24-47"]}
{"id": "C101", "title": "The translation of formats can be used", "statement": "`nappy.utils.ffi_translator` can be imported, with the missing value of the configuration.", "quantifier": "all configuration files, all histories of lookups before", "why_tests_cant": "no test imports the module", "anchors": ["nappy/utils/ffi_translator.py:20", "nappy/config/nappy.ini:1-9", "nappy/utils/parse_config.py:31-69"]}
{"id": "C102", "title": "Dictionaries can be written to NetCDF", "statement": "`writeNADictToNC(na_dict, nc_file)` writes the variables of the dictionary to the NetCDF file and returns True.", "quantifier": "all dictionaries of files that can be converted (C66), all file names", "why_tests_cant": "no test calls the function", "anchors": ["nappy/nappy_api.py:361-393", "nappy/nc_interface/na_to_xarray.py:63"]}
{"id": "C103", "title": "Attributes without a place in the header become comments", "statement": "Converting NetCDF data with global attributes, every attribute that has no item of its own in the header is a line `name:   value` of the normal comments; the lines of the attribute `comment`, a line on the conversion and the old history follow, in this order, and nothing else is there but headings.", "quantifier": "all sets of global attributes, all variables, all number formats and clocks", "why_tests_cant": "tests compare a few sample files; whether an attribute of some other name or kind gets lost depends on attributes not in the samples", "anchors": ["nappy/nc_interface/na_content_collector.py:514-609", "nappy/nc_interface/na_content_collector.py:611-749"]}
{"id": "C104", "title": "Single values are kept in the comments", "statement": "Converting NetCDF data, every variable without axes is in the special comments of the first file, with its name, its value and its attributes, as are the attributes of the main variables.", "quantifier": "all lists of variables, all attributes", "why_tests_cant": "whether a singleton survives depends on the attributes of the other variables and on the comments of the source, which sample files do not vary", "anchors": ["nappy/nc_interface/xarray_to_na.py:132-155", "nappy/nc_interface/na_content_collector.py:651-749"]}
{"id": "C105", "title": "Dictionaries of format 2010 can be translated to 2110", "statement": "`translate2010To2110(na_dict)` returns a valid dictionary of format 2110 for every valid dictionary of format 2010.", "quantifier": "all dictionaries, all objects read from files", "why_tests_cant": "no test calls the function", "anchors": ["nappy/utils/ffi_translator.py:23-42"]}
{"id": "C106", "title": "Variables in memory are converted like those of a file", "statement": "An object of `XarrayObjectsToNAFile` made of the variables and attributes of a NetCDF file writes the same NASA Ames files as `convertNCToNA` does for this file, and tells the same names, whether `convert` was called before or not.", "quantifier": "all lists of variables and attributes, all replaced items, requested formats, options and file names", "why_tests_cant": "no test uses the class; the same calls must behave alike for every grouping of variables and every option", "anchors": ["nappy/nc_interface/xarray_objs_to_na_files.py:32-57", "nappy/nc_interface/xarray_to_na.py:54-130", "nappy/nc_interface/xarray_to_na.py:198-365"]}
{"id": "C107", "title": "The comparison of files and directories is symmetric", "statement": "`compare.py a b` and `compare.py b a` report the same differences with the sides exchanged, and comparing an item with itself reports none.", "quantifier": "all files, all directory trees of any depth, all names", "why_tests_cant": "depends on every pair of trees and on the names left out; no test runs the tool", "anchors": ["nappy/utils/compare.py:24-125"]}
{"id": "C108", "title": "Names on the way to NetCDF and back are cleaned and keep their units", "statement": "If a NASA Ames file is converted to NetCDF and back (C97) and nobody overrides the names, then the file that comes back has as many main and auxiliary names, in the same order. Each is made from the old one, which is split into a name and units: the name is in lower case with an underscore for every run of white space and troublesome characters, or is the one the caller gives for that, and the units, if there are any, follow in brackets. So a name that is good already comes back unchanged.", "quantifier": "All files of formats 1001, 2010, 3010 and 4010 that C97 is about, all callbacks for units, all new names given by the caller; names of less than 64 characters, units and new names without an opening bracket.", "why_tests_cant": "A test compares the names of sample files; that no other name is mangled, swapped or loses its units is a statement about all names and both conversions together.", "anchors": ["nappy/nc_interface/na_to_xarray.py:246-291", "nappy/nc_interface/na_to_xarray.py:322-365", "nappy/nc_interface/xarray_utils.py:25-170", "nappy/nappy_api.py:172-295"]}
{"id": "C109", "title": "Axes keep their names on the way to NetCDF and back", "statement": "If a NASA Ames file is converted to NetCDF and back (C97), the axes of the file that comes back have the names that they had before. (In fact units in brackets are put at the end of every name once more: a name with units gets another blank, a name without gets `(Not known)`, and an axis taken for time without units of time loses its name.)", "quantifier": "All files of formats 1001, 2010, 3010 and 4010 that C97 is about, all callbacks for units, all units of time given or typed by the user.", "why_tests_cant": "A test compares the names of sample files; what happens to every name, with and without units, over both conversions is a statement about all names.", "anchors": ["nappy/nc_interface/na_to_xarray.py:367-451", "nappy/nc_interface/xarray_utils.py:25-170", "nappy/nappy_api.py:172-295"]}
{"id": "C110", "title": "Files settle when converted to NetCDF and back again and again", "statement": "If a NASA Ames file is converted to NetCDF and back any number of times (C97), the trips after the first change nothing: numbers, missing values, format, names and comments are those that came back from the first one.", "quantifier": "All files of formats 1001, 2010, 3010 and 4010 that C97 is about, any number of trips, all number formats that keep what they have written once.", "why_tests_cant": "A test makes one or two trips with a sample file; that nothing drifts after any number of them needs induction over the trips.", "anchors": ["nappy/nappy_api.py:172-295", "nappy/nc_interface/na_to_xarray.py:217-451", "nappy/nc_interface/xarray_utils.py:25-170", "nappy/nc_interface/na_content_collector.py:332-512"]}
{"id": "C111", "title": "The header of a file survives the way to NetCDF and back", "statement": "If a NASA Ames file is converted to NetCDF and back (C97) and nobody overrides these items, the file that comes back tells the same originator, organisation, source, mission, dates and volume numbers as the first file. (In fact the date of revision becomes the day of the conversion and both volume numbers become 1, and the first date is computed anew if the first axis is time.)", "quantifier": "All files of formats 1001, 2010, 3010 and 4010 that C97 is about, all local attributes and items given by the caller, all clocks; organisations that do not hold the text `(ONAME from NASA Ames file);`.", "why_tests_cant": "A test compares the headers of sample files; that the originator and organisation, which travel in one attribute, are told apart again for all names is a statement about all strings and both conversions together.", "anchors": ["nappy/nc_interface/na_to_xarray.py:132-215", "nappy/nc_interface/na_content_collector.py:514-609", "nappy/nc_interface/na_content_collector.py:751-798", "nappy/nappy_api.py:172-295"]}
{"id": "C112", "title": "Variables can be counted from the end", "statement": "`getVariable(-k)`, `getIndependentVariable(-k)` and `getAuxVariable(-k)` return the metadata of the k-th variable from the end, as negative numbers do everywhere in Python, and a number that no variable has is refused with an IndexError. (In fact a text variable of format 2160 counted from the end is given the scale factor of a number, and a header with surplus missing values gives those of the wrong place.)", "quantifier": "All files that can be opened, all whole numbers, all callbacks for units.", "why_tests_cant": "No test uses negative numbers; the lists of names, missing values and scale factors have to be of equal length for every header.", "anchors": ["nappy/na_file/na_core.py:120-152", "nappy/na_file/na_core.py:192-217", "nappy/utils/text_parser.py:61-97"]}
{"id": "C113", "title": "One name can be given instead of a list of names", "statement": "In `convertNCToNA`, a string as `var_ids` or `exclude_vars` means the same as a list that holds this string: only the variables of this name are converted, or all but them. (In fact a string as `exclude_vars` is taken for the list of its letters: the variable of this name is converted all the same, and variables with one of the letters as their name are left out.)", "quantifier": "All NetCDF files, all names.", "why_tests_cant": "Tests give lists; which variables a string matches depends on all names in the file.", "anchors": ["nappy/nc_interface/nc_to_na.py:61-102", "nappy/utils/common_utils.py:249-255", "nappy/nappy_api.py:239-295"]}
