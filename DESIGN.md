# Formal model of nappy (NASA Ames reader/writer) in Lean 4

This document says what is modelled, how each property of `properties.jsonl` is
expressed and proved, and what has to be trusted.

## 1. Shape of the model

The Lean project is `/verif/lean`. Every definition of the model cites the file and lines it follows.

| module | models |
|---|---|
| `Py`, `PyVal` | Python runtime pieces used by the code: white space, `strip`, `split`, `re.split(r"\s+")`, `readlines`, universal newlines, `str.splitlines`, `int()`, `%d`, slices, exceptions, dictionaries |
| `Codec` | number formatting and parsing as an interface (`"%s" % x`, `float_format % x`, `float(s)`, `int(x)`) |
| `PyFormat` | printing with `%f`, `%e`, `%g`, `%s` and reading with `float`, which make the codec concrete |
| `TextParser` | `utils/right_strip.py`, `utils/text_parser.py` |
| `CommonUtils` | `utils/common_utils.py` |
| `ListManip` | `utils/list_manipulator.py` |
| `NAFile` | `na_file/na_file.py`: header sections, header length, blank lines, read loop, order of writes |
| `FFI1`, `FFI2` | `na_file/na_file_1001/1010/1020.py`, `na_file_2010/2110/2160/2310/3010/4010.py` |
| `Open`, `Lifecycle` | `openNAFile`, dispatch on the class; the life of a file object as a state machine |
| `Core`, `Accessors`, `AccessorsInt` | `na_file/na_core.py` |
| `DictFile` | `openNAFile` in mode `w` and `write` for a dictionary with untyped items |
| `XarrayUtils` | `nc_interface/xarray_utils.py` |
| `Linspace` | `isUniformlySpaced` of `nc_interface/xarray_utils.py`, with numpy's `linspace` over given arithmetic |
| `Collector`, `CollectDict` | `nc_interface/na_content_collector.py`, and `convert` of `xarray_to_na.py` |
| `XarrayToNA` | the rest of `nc_interface/xarray_to_na.py`: file names, overrides, comments, splitting |
| `NAToXarray` | `nc_interface/na_to_xarray.py` |
| `Api`, `NamesArg` | `nappy_api.py`, `nc_interface/nc_to_na.py`, `na_to_nc.py` |
| `Objs` | `nc_interface/xarray_objs_to_na_files.py` |
| `Getopt`, `Scripts` | Python's `getopt`; `script/nc2na.py`, `nc2csv.py`, `na2nc.py`, command line of `compare_na.py` |
| `CompareNA` | `utils/compare_na.py`, `utils/compare.py` |
| `Config` | `utils/parse_config.py` |
| `Helpers` | `arrayToList` and `listOfListsCreator` of `utils/list_manipulator.py`, importing `utils/ffi_translator.py` |
| `Ini` | what `RawConfigParser` of Python 3.11 makes of a text; `getDefault` and `getDebug` of `utils/common_utils.py` |

Besides the model:

| modules | contents |
|---|---|
| `Spec.*` | vocabulary of the statements: what a well-formed dictionary is, what the lines of a file are, declarative readings of regular expressions, grammars of argument lists. Independent of the model's helper functions |
| `*Lemmas`, `RT*`, `WriteSpec`, `CollectShape`, `CollectObj` | helper lemmas |
| `Examples`, `CollectCheck` | concrete data, used to show that hypotheses can be met |
| `Props.*` | the property theorems, with a concrete case beside each |

Conventions.

* A Python `str` is a `List Char`. A text file is one `List Char`; reading it applies
  universal newline translation and splits after each `\n`.
* A Python exception is a value of type `Err`; a function that can raise returns
  `Except Err a`. A call that never returns is the special outcome `Err.hang`; where it is used, a
  separate theorem about the unrolled loop justifies it. `Err.outside` marks the few inputs where the
  model does not follow the code (listed below); no theorem claims anything for them.
* Mutable Python objects are passed as state: a writer returns the text it produced and the
  dictionary as the caller sees it afterwards, because `_parseDictionary` stores the caller's own lists
  on the object.
* `float` is an abstract type `F` with a codec. The codec says: `"%s" % x` is one token which
  `float` reads back as `x`; `float_format % x` is one token, possibly padded, which `float`
  reads back as `q x`. `q` is the rounding the chosen format does. Nothing else is assumed. Arithmetic on
  floats (scale factors, increments) enters as functions on `F`, with the laws needed as hypotheses.
* Counts read from a file (`NV`, `NAUXV`, ...) are `Int`, as in Python.

## 2. Properties and how they are proved

The theorems of property `Cnn` are called `Cnn...` and are in `Props`; `MANIFEST.json` lists them and says what is
missing.

| id | status | modelled as | proof |
|---|---|---|---|
| C01 | proved | `rightStrip`; the regular expression is read declaratively in `Spec.Text` | case analysis on the reversed line, uniqueness of the last `{` |
| C02 | proved | `readItemsFromLine` | direct |
| C03 | partial | `readItemsFromUnknownLines`, list and file variants | induction on lines; negation by witness, exact description of what is accepted |
| C04 | proved | same | induction on the lines of a record |
| C05 | partial | file variant of the loop, unrolled n times; layout of headers that end inside a list | negation: a header whose every unrolling is still running; what each outcome means; equivalence for whole files |
| C06 | proved | `write1001` then `openNA`, `readData1001` on the text | section-wise round-trip lemmas, induction on records |
| C07 | proved | the same for 1010 | same |
| C08 | proved | the same for 1020 | same, with implied marks |
| C09 | partial | the same for 2010, 3010, 4010 | same, with nested lists; counterexample for 3010 |
| C10 | proved | the same for 2110 | same, ragged records |
| C11 | partial | the same for 2160 | same, character marks; counterexamples |
| C12 | partial | the same for 2310 | same; what is read in general |
| C13 | proved | header text built, counted and patched | induction on lines |
| C14 | proved | first line of the written file | from C13 |
| C15 | partial | the writer returns the dictionary as left for the caller | involution of `reverse`; negation by witness |
| C16 | partial | k-fold write | induction on k |
| C17 | proved | `Handle`, a state machine over lists of calls | invariant by induction |
| C18 | partial | a write as a list of chunks and an outcome | every prefix of the list |
| C19 | partial | writer with and without header | direct; negation for 3010 |
| C20 | partial | writer with an annotation table | relation between texts, line by line |
| C21 | proved | data rows with delimiter `,` | split of a joined list |
| C22 | proved | fuel-indexed loop `readLoop` | the fuel given never runs out |
| C23 | proved | `checkBlank` | induction |
| C24 | proved | `readLoop` | invariant by induction on records |
| C25 | partial | same, with the numbers of the file as one list | subsequence by induction; negation by witness |
| C26 | partial | `readData` iterated | fixpoint; exact result of n calls |
| C27 | partial | reader with k extra lines | induction on k |
| C28 | proved | `populate`, `writeLines` on trees | induction on dimensions |
| C29 | proved | `chooseFFI` on dictionaries | case analysis |
| C30 | partial | `chooseFFI` on the attributes of each file class | case analysis, equivalence |
| C31 | partial | `getFileNameWithNewExtension` | exact result for all names |
| C32 | proved | `makeDictFromCommaSepString` | induction on pairs |
| C33 | proved | `writeSubsets` | strong induction on the remaining length |
| C34 | partial | `writeNAFiles` with its list of names | induction on dictionaries |
| C35 | partial | `splitGo` | measure; divergence by unrolling |
| C36 | proved | `constructNAFileNames` | injectivity of decimal numerals |
| C37 | partial | `applyOverrides` | induction on keys |
| C38 | partial | `cleanWrapComments` | case analysis |
| C39 | partial | `updateWithColumnHeaders` | direct |
| C40 | proved | `convert` with fuel | decreasing measure |
| C41 | partial | `convert` | permutation invariant by induction |
| C42 | partial | `reorderBy` | induction on variables |
| C43 | partial | `analyse`, `decideFFI` | case analysis |
| C44 | partial | `areAxesIdentical` | exact characterisation |
| C45 | proved | `subsetFactor` | induction |
| C46 | partial | `axisDef`, then writing, reading and `normalizeIndVars` | induction; witness in rounded decimals |
| C47 | proved | `varAndUnits`; declarative reading of the pattern | case analysis on brackets |
| C48 | partial | `NACore`, attribute tables of all classes | induction on keys |
| C49 | proved | `compNAFiles` on lines | induction on lines |
| C50 | partial | same | same; negation for the value returned |
| C51 | partial | `itemDiffers` | over an ordered field; negation |
| C52 | partial | `toXarray` followed by `collectDict` | induction on comment lines, hooks of headings |
| C53 | partial | `CfgState`, callers as lists of operations | invariant by induction; negation by witness |
| C54 | partial | `convertNCToNA` and the other functions of the API | direct, for all dictionaries; negations |
| C55 | partial | `getopt` and the argument loops | induction on arguments over a grammar of spellings |
| C56 | partial | `Handle` after a failing write | induction on calls |
| C57 | proved | accessors of `NACore` on opened files | shape lemmas of C24 |
| C58 | partial | `writeNAFiles` run twice | induction on dictionaries |
| C59 | partial | `analyse`, `collectDict` | construction of a well-formed object that the dictionary describes |
| C60 | partial | `analyse` | universal negation |
| C61 | partial | `collectDict` | induction on attributes |
| C62 | partial | `toXarray` followed by `collectDict` | same; exact parts of the institution text |
| C63 | partial | `globalAttrs` | induction on attributes |
| C64 | partial | `toXarray` | induction on variables |
| C65 | partial | `toXarray` with a selection | induction on the selection |
| C66 | partial | `toXarray` | construction, with shapes from C24 |
| C67 | partial | `toXarray` followed by `convertDicts` | one pass of `analyse` takes everything; then C59 and C64 |
| C68 | proved | `compareSections` | induction on lines |
| C69 | partial | `compareNA` | direct |
| C70 | partial | `compDirs` on trees | mutual induction on trees |
| C71 | partial | `nc2csvCommand`, `nc2csvProgram` | induction on arguments |
| C72 | partial | `writeDict`, `openDict`, `openNA`, `readData` | conversion of each item and back; the object read is described in closed form |
| C73 | partial | `bestNameOf`, `withUnits`, `pickName` | induction on texts (search and replacement) |
| C74 | partial | `firstStep`, `axisDef`, `indSection`, `collectDict` | induction on the values of the axis |
| C75 | partial | `convertNCToNA` with `writeDict` as the effect, then `openNA`, `readData` | composition of C59, C37, C39, C72 and the round trips; induction on files |
| C76 | proved | `takesVar`, `readXarrayFile`, `ncDicts` | every variable analysed is traced back to the file; induction on variables and passes |
| C77 | partial | `convertNAToNC`, `byName` | invariant of the loop over variables; counting |
| C78 | partial | `shortName`, `safeId`, `safeName`, `lookupLast` | induction on texts and on the list of names |
| C79 | partial | `getXarrayVariableFromNA`, `mainNumbers` | equality of two runs of the conversion |
| C80 | partial | a declarative layout of headers (`Spec/Header.lean`), `openNA` | equivalence of reader and layout, by combinators for readers |
| C81 | proved | same | from the equivalence |
| C82 | partial | `dataLines` against the layout | equivalence; negation by witness |
| C83 | partial | a declarative layout of records (`Spec/Records.lean`), `Obj.readData` | equivalence of loop and layout, state after the loop as a function of the records |
| C84 | proved | same | from the equivalence, the layout being closed under concatenation |
| C85 | proved | same, on a prefix of the lines | induction over the records; a cut record runs out of lines in every reader |
| C86 | proved | layout relation of headers, in five parts | the layout of each part is independent of the others; equivalence of C80 |
| C87 | proved | layout relation of data sections | the relation uses the counts only; equivalence of C83 |
| C88 | partial | `convertNCToNA`, `writeDict`, `convertNAToNC` | composition of C75 with C64 and C77 |
| C89 | proved | `Floats.format`, `Floats.parse`, exact integer arithmetic | printed digits are read digit by digit; bounds in ℚ for rounding, the decimal exponent and the carry |
| C90 | proved | `Obj.write`, all header and data writers | each template and each loop succeeds exactly if its indices exist |
| C91 | partial | `readFile`, `Obj.write` | C80 (header layout), C24 (shape of the data) and C90 |
| C92 | partial | `analyse`, `convert` | membership of the three lists after each step of the sorting loop; composition with C88 |
| C93 | proved | `convertNCToNA`, `writeDict`, `readFile`, `Floats.format` | C75 with the number formats of C89 |
| C94 | partial | `convertNCToNA`, `arrayAsList`, `readFile` | what C75 proves of each file, compared value by value; C89 for the digits |
| C95 | partial | `isUniformlySpaced`, `Arith.linspace`, `analyse` | closed form of every value of `linspace` in a field; membership of 2310 in the list of formats |
| C96 | proved | `Obj.write`, `readFile` | the round trips C06-C12 make writing injective; C72 for the other direction |
| C97 | partial | `convertNAToNC`, `convertNCToNA`, `readFile` | C77 for the way there, C76 and C75 for the way back, on what opening the NetCDF file may give |
| C98 | proved | `parseIni`, `makeConfigDict`, `getDefault`, `getDebug` | induction over lines, options and sections with the state of the parser as invariant; C53 for histories |
| C99 | partial | `addColumnHeaders` | C98 and the truth value of texts |
| C100 | partial | `arrayToList`, `listOfListsCreator` | cases |
| C101 | partial | `importTranslator` | C98 |
| C102 | partial | `writeNADictToNC` | direct |
| C103 | partial | `globStep`, `defineComments` | induction over the attributes |
| C104 | partial | `rawSpecial`, `convertDicts` | induction over the variables |
| C105 | partial | `translate2010To2110` | cases on the formats |
| C106 | partial | `ObjsToNA`, `convertNCToNA` | equality of two runs, for all effects of writing |
| C107 | partial | `compareItems`, `compareProgram` | induction over the specification of the walk (C70) |
| C108 | proved | `convertNAToNC`, `convertNCToNA`, `readFile` | C78 for the names in the NetCDF file, C73 for the names made from them, and the trip of C97 |
| C109 | partial | `convertNAToNC`, `convertNCToNA`, `readFile` | attributes of the axes made, C73 for the names made from them, and the trip of C97; negation by computation |
| C110 | partial | `convertNAToNC`, `convertNCToNA`, `readFile`, any number of times | induction over the trips, with C97, C108 and C52 for each |
| C111 | partial | `convertNAToNC`, `convertNCToNA`, `readFile` | C63 for the attributes, C62 for their way back, and the trip of C97; negation by computation |
| C112 | partial | `getVariableI`, `getIndependentVariableI`, `getAuxVariableI` | index arithmetic on top of C57; negation of the rest by a general argument for format 2160 and by computation for surplus values |
| C113 | partial | `NamesArg.ids`, `NamesArg.excluded`, `readXarrayFile`, `ncDicts` | C76 for the lists that the arguments are turned into |

"partial" has two meanings, told apart in the notes of `MANIFEST.json`. Mostly the property is false of the code: the
model keeps the code's behaviour, a theorem `Cnn_..._fails` (or similar) states the negation, by a concrete witness or
for all inputs of a kind, and a theorem with suffix `_partial` states what does hold, often as an equivalence. In one
case, C75 for files of format 1020 with several axes, the rest lies outside the model (see note).

## 3. Trusted base

* Lean 4.33.0's kernel. No axioms are added; no `sorry`, `native_decide` or `bv_decide`.
  Every theorem in `MANIFEST.json` depends on no axioms other than `propext`, `Classical.choice` and `Quot.sound`
  (checked with `#print axioms`); about a fifth depend on `propext` and `Quot.sound` only, a tenth on
  `propext` only or none.
* That the Lean definitions follow the Python code; each cites the lines it models.
* The codec assumptions on number formatting, stated as structure fields. `C89_lawful` proves them for all formats with
  the conversions f, e, g and s, from a model of Python's `%` and `float` (`PyFormat`); what is left to assume is
  `FloatsOk`, essentially that `float(str(x))` is `x`. `%d` as `float_format` is not modelled.
* Python's own semantics for the string, list, `re` and `getopt` operations in `Py`, `Core`, `Getopt` (Python 3.11;
  `getNAFileClass` uses `exec` and `locals()` in a way that works up to 3.12).

### Not modelled

* File encodings, buffering below `file.write`, the file system beyond names and texts. A file name is a string; no
  file exists before unless said so.
* xarray, numpy and NetCDF. A variable is an `XVar`: name, axes, nested list of values, attributes. Its dimensions
  always have coordinates; time axes are taken as numbers; attributes of variables other than strings are left out,
  except the numbers nappy stores. How xarray reads and writes a file is not modelled: a NetCDF file is its list of
  variables and its attributes. `ReopenedFile` (C97) says what opening a file again may change: missing values may be
  masked, coordinate variables are added, whole numbers among the global attributes may have a type of numpy.
* Binary floating point, apart from rounding to 53 digits in the counterexample of C95. `isUniformlySpaced` is a
  parameter of the conversion; C95 puts a model of it in its place. Parameters are also `is_time`, the conversion of dates, the clock, the version and the pattern for time units.
* Logging and messages printed, except by the comparison tools, whose output is what they are for. What these print
  before an exception is left out.
* `getVersion`, `get_rank_zero_array_value`. `Ini` models Python's parser of configuration files; duplicate names raise at once, and
  errors that Python raises at the end of the file are raised where they are found. `eval` in `getDebug` is modelled for
  `True` and `False` only.

### Simplifications inside the modelled part

* `chooseFFI` with a float `NIV`, `XarrayToNA` with comments or names of odd types, and `collectDict` with no main
  variable give `Err.outside`.
* `FFI == 1001` with a float `FFI` is not recognised in `mustSplit`.
* The numbers 0 and 1 and counts in collected dictionaries are `num` values where the code has Python ints among floats.
* `str.lower` changes ASCII letters only; `\d` and `isdigit` are ASCII.
* In `Api`, `convertNAToCSV` takes the dictionary of the object read to
  give the same object again (`C72_dictionary` shows that this writes the same); `fix_ints` is modelled for global attributes.
* `DictFile`: a dictionary in which an item the writer of its format uses is missing, or of another type than readers
  produce, gives `Err.outside`.
* `None` for the auxiliary lists of files without auxiliary variables is an empty list.

## 4. Testing the theorems

`seeded/LOG.jsonl` records edits of the model, made in a copy outside `/verif`, each like a realistic bug: what was
edited, the claim it breaks, the theorems that then fail to build, and the theorems tightened because they did not.
