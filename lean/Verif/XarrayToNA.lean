import Verif.CommonUtils

/-! Model of the part of `nappy/nc_interface/xarray_to_na.py` that turns NASA Ames dictionaries into files:
file names, overriding of header items, comments, column headers and the splitting of long 1001 data.
`convert` is modelled in `Collector`. Messages and logging are left out. -/

namespace Nappy

variable {F : Type}

/-- One call `x = nappy.openNAFile(name, 'w', na_dict); x.write(...); x.close()`, `xarray_to_na.py` lines
322-326 and 408-410. -/
structure WriteCall (F : Type) where
  name : Str
  dict : Dict (PyVal F)
  delimiter : Str
  floatFormat : Str
  noHeader : Bool
  annotation : Bool

/-- The options of `writeNAFiles`, `xarray_to_na.py` lines 229-230. -/
structure WriteOpts where
  delimiter : Str
  floatFormat : Str
  annotation : Bool
  sizeLimit : Option Int
  noHeader : Bool

/-- Section `header_partitions` of `nappy/config/nappy.ini`, as far as it is used in `xarray_to_na.py`. -/
structure Partitions where
  sc_start : Str
  sc_end : Str
  nc_start : Str
  nc_end : Str
  data_next : Str

/-- The values in `nappy/config/nappy.ini` lines 11-16. -/
def nappyIni : Partitions :=
  { sc_start := "==== Special Comments follow ====".toList,
    sc_end := "==== Special Comments end ====".toList,
    nc_start := "==== Normal Comments follow ====".toList,
    nc_end := "==== Normal Comments end ====".toList,
    data_next := "=== Data Section begins on the next line ===".toList }

/-- `s[-3:] == ".nc"` and the like: the last three characters. -/
def lastThree (s : Str) : Str := s.drop (s.length - 3)

/-- `s[:-3]` -/
def dropThree (s : Str) : Str := s.take (s.length - 3)

/-- The name that the file names are made from, `xarray_to_na.py` lines 207-213. `ncFile` is the attribute
`nc_file`, which only objects of class `NCToNA` have. -/
def baseNAFile (ncFile naFile : Option Str) : Res Str :=
  match naFile, ncFile with
  | some f, _ => .ok f
  | none, none => .error .attribute
  | none, some base => .ok ((if lastThree base = ".nc".toList then dropThree base else base) ++ ".na".toList)

/-- `constructNAFileNames(na_file)`, `xarray_to_na.py` lines 198-227, for `n` dictionaries in
`self.na_dict_list`. -/
def constructNAFileNames (ncFile : Option Str) (n : Nat) (naFile : Option Str) : Res (List Str) := do
  let naFile ← baseNAFile ncFile naFile
  let parts := splitP (· == '.') naFile
  if n = 1 then .ok [naFile]
  else .ok ((List.range n).map (fun i =>
    join ['.'] parts.dropLast ++ '_' :: natStr (i + 1) ++ '.' :: parts.getLast?.getD []))

/-- `f"{ivol:03d}"` for a number that is not negative -/
def pad3 (n : Nat) : Str := List.replicate (3 - (natStr n).length) '0' ++ natStr n

/-- Where `_writeNAFileSubsetsWithinSizeLimit` stands: the local variables and the files written. -/
structure SplitState (F : Type) where
  start : Int
  ivol : Nat
  names : List Str
  written : List (WriteCall F)

/-- The values that do not change in the loop of `_writeNAFileSubsetsWithinSizeLimit`. -/
structure SplitEnv (F : Type) where
  dict : Dict (PyVal F)
  vars : List (PyVal F)
  fileName : Str
  opts : WriteOpts
  limit : Int
  len : Nat
  nvol : Int

/-- The files one round of the loop writes, `xarray_to_na.py` lines 389-410, and the end of the block. The
option `no_header` is not passed on (line 409). -/
def splitFile (e : SplitEnv F) (s : SplitState F) : Res (WriteCall F × Int) := do
  let ivol := s.ivol + 1
  let stop := if s.start + e.limit > e.len then (e.len : Int) else s.start + e.limit
  let block ← mapRes (fun v => PyVal.slice v s.start stop) e.vars
  let d ← modifyNADictCopy e.dict (.list block) s.start stop ivol e.nvol
  .ok ({ name := dropThree e.fileName ++ '-' :: pad3 ivol ++ ".na".toList, dict := d,
         delimiter := e.opts.delimiter, floatFormat := e.opts.floatFormat, noHeader := false,
         annotation := e.opts.annotation }, stop)

/-- One round of the loop, `xarray_to_na.py` lines 389-418. `emit` says whether the call that writes the
file raises. The name is appended to `file_names` before and after the file is written (lines 405 and 418). -/
def splitStep (emit : WriteCall F → Res Unit) (e : SplitEnv F) (s : SplitState F) :
    SplitState F × Option Err :=
  match splitFile e s with
  | .error x => (s, some x)
  | .ok (c, stop) =>
    match emit c with
    | .error x => ({ s with names := s.names ++ [c.name] }, some x)
    | .ok _ => ({ start := stop, ivol := s.ivol + 1, names := s.names ++ [c.name, c.name],
                  written := s.written ++ [c] }, none)

/-- The loop `while start < array_length`, `xarray_to_na.py` lines 388-418, for at most `fuel` rounds;
`Err.hang` if that is not enough. -/
def splitGo (emit : WriteCall F → Res Unit) (e : SplitEnv F) :
    Nat → SplitState F → SplitState F × Option Err
  | fuel, s =>
    if s.start < e.len then
      match fuel with
      | 0 => (s, some .hang)
      | fuel + 1 =>
        match splitStep emit e s with
        | (s', some x) => (s', some x)
        | (s', none) => splitGo emit e fuel s'
    else (s, none)

/-- What the loop of `_writeNAFileSubsetsWithinSizeLimit` starts from, `xarray_to_na.py` lines 374-385. -/
def splitInit (d : Dict (PyVal F)) (fileName : Str) (opts : WriteOpts) (limit : Int) : Res (SplitEnv F) := do
  match ← dictGet d "V" with
  | .list vars =>
    match ← idx vars 0 with
    | .list v0 =>
      if limit = 0 then .error .zeroDiv
      else
        let n : Int := v0.length
        let nvol := if Int.fmod n limit > 0 then Int.fdiv n limit + 1 else Int.fdiv n limit
        .ok { dict := d, vars := vars, fileName := fileName, opts := opts, limit := limit, len := v0.length,
              nvol := nvol }
    | _ => .error .type
  | _ => .error .type

/-- `_writeNAFileSubsetsWithinSizeLimit`, `xarray_to_na.py` lines 367-420. One round per value is enough for
any limit above zero; with a limit below zero the loop never ends (`C35_diverges`). -/
def writeSubsets (emit : WriteCall F → Res Unit) (d : Dict (PyVal F)) (fileName : Str) (opts : WriteOpts)
    (limit : Int) : SplitState F × Option Err :=
  let s0 : SplitState F := { start := 0, ivol := 0, names := [], written := [] }
  match splitInit d fileName opts limit with
  | .error x => (s0, some x)
  | .ok e => splitGo emit e e.len s0

/-- The strings in a list of values, if all are strings. -/
def asStrs : List (PyVal F) → Option (List Str)
  | [] => some []
  | .str s :: t => (asStrs t).map (s :: ·)
  | _ :: _ => none

/-- The first column names, `xarray_to_na.py` lines 444-447. -/
def firstColumn (d : Dict (PyVal F)) (ffi : Int) : Res (List (PyVal F)) :=
  if ffi = 1001 ∨ ffi = 2110 then do
    let names ← dictGet d "XNAME"
    let x ← names.item 0
    .ok [x]
  else .ok []

/-- `_updateWithColumnHeaders(na_dict, delimiter)`, `xarray_to_na.py` lines 422-453. The dictionary is
changed in place. The code makes no use of `delimiter`. Values of a type other than expected are
not modelled (`Err.outside`). -/
def updateWithColumnHeaders (d : Dict (PyVal F)) (_delimiter : Str) : Res (Dict (PyVal F)) := do
  match ← dictGet d "FFI" with
  | .int ffi =>
    if ffi = 1001 ∨ ffi = 1010 ∨ ffi = 2110 then
      match ← dictGet d "NAUXV" with
      | .int nauxv =>
        if nauxv > 0 then .ok d
        else do
          let first ← firstColumn d ffi
          match ← dictGet d "VNAME" with
          | .list vnames =>
            match asStrs (first ++ vnames) with
            | some names =>
              match ← dictGet d "NCOM" with
              | .list ncom =>
                let ncom' := ncom ++ [.str (join [','] names)]
                .ok (dictSet (dictSet d "NCOM" (.list ncom')) "NNCOML" (.int ncom'.length))
              | _ => .error .outside
            | none => .error .outside
          | _ => .error .outside
      | _ => .error .outside
    else .ok d
  | _ => .error .outside

/-- `_cleanWrapComments(existing_comments, new_comments, key, comment_override_rule)`, `xarray_to_na.py`
lines 455-506, on lists of strings. `key` is "SCOM" (`ncom = false`) or "NCOM" (`ncom = true`); `insert` says
whether the rule is "insert". -/
def cleanWrapComments (hp : Partitions) (existing new : List Str) (ncom insert : Bool) : Res (List Str) :=
  if existing = [] then .ok new
  else if new = [] then .ok existing
  else
    let startLine := if ncom then hp.nc_start else hp.sc_start
    let startUsed := existing.head? = some startLine
    let existing := if startUsed then existing.drop 1 else existing
    let endLine := if ncom then hp.nc_end else hp.sc_end
    match existing.getLast? with
    | none => .error .index
    | some last =>
      let endUsed : Option Str := if last = endLine then some endLine else none
      let existing := if last = endLine then existing.dropLast else existing
      let (existing, endUsed) :=
        if endUsed.isNone && ncom && decide (last = hp.data_next) then (existing.dropLast, some hp.data_next)
        else (existing, endUsed)
      let combined := if insert then new ++ existing else existing ++ new
      let combined := if startUsed then startLine :: combined else combined
      .ok (combined ++ endUsed.toList)

/-- `permitted_overwrite_metadata`, `xarray_to_na.py` lines 41-42. -/
def permittedOverwrite : List String :=
  ["DATE", "RDATE", "ANAME", "MNAME", "ONAME", "ORG", "SNAME", "VNAME", "SCOM", "NCOM"]

/-- `items_as_lists`, `xarray_to_na.py` line 43. -/
def itemsAsLists : List String := ["DATE", "RDATE", "ANAME", "VNAME"]

/-- The override rule of the configuration. -/
inductive Rule where
  | replace
  | insert
  | extend
  | other
  deriving DecidableEq

/-- `len(comments_list)` -/
def PyVal.len : PyVal F → Res Nat
  | .list l => .ok l.length
  | .str s => .ok s.length
  | _ => .error .type

/-- The comments that replace `existing`, `xarray_to_na.py` lines 287-296. A comment override can be a list of
strings or, for instance from the command line, one string; then `+` with a list raises `TypeError`.
Comments of other types are not modelled (`Err.outside`). -/
def overrideComments (hp : Partitions) (rule : Rule) (key : String) (existing : Option (PyVal F))
    (new : PyVal F) : Res (PyVal F) :=
  match rule with
  | .other => .error .exn
  | .replace =>
    match new with
    | .list l => .ok (.list l)
    | .str s => .ok (.str s)
    | _ => .error .type
  | _ =>
    match new, existing.getD (.list []) with
    | .list n, .list e =>
      match asStrs n, asStrs e with
      | some n, some e => do
        let c ← cleanWrapComments hp e n (key == "NCOM") (rule == .insert)
        .ok (.list (c.map .str))
      | _, _ => .error .outside
    | .str s, .list e =>
      if e = [] then .ok (.str s)
      else if s = [] then .ok (.list e)
      else match asStrs e with
        | none => .error .outside
        | some e =>
          match cleanWrapComments hp e [s] (key == "NCOM") (rule == .insert) with
          | .error x => .error x
          | .ok _ => .error .type
    | .list _, _ => .error .outside
    | .str _, _ => .error .outside
    | _, _ => .error .type

/-- The value an overriding item stands for, `xarray_to_na.py` lines 276-281: some items are given as one
string of words. -/
def overrideItem (key : String) (value : PyVal F) : Res (PyVal F) :=
  if key ∈ itemsAsLists then
    match value with
    | .str s =>
      if key = "DATE" ∨ key = "RDATE" then do
        let is ← mapRes pyInt (words s)
        .ok (.list (is.map .int))
      else .ok (.list ((words s).map .str))
    | _ => .error .attribute
  else .ok value

/-- One round of the loop over the overriding items, `xarray_to_na.py` lines 273-305. Assigning an item
that is equal already is not told apart from leaving it. -/
def applyOverride (hp : Partitions) (rule : Rule) (d : Dict (PyVal F)) (key : String) (value : PyVal F) :
    Res (Dict (PyVal F)) :=
  if key ∈ permittedOverwrite then do
    let newItem ← overrideItem key value
    if key = "SCOM" ∨ key = "NCOM" then do
      let c ← overrideComments hp rule key (dictGet? d key) newItem
      let n ← c.len
      .ok (dictSet (dictSet d key c) ("N" ++ key ++ "L") (.int n))
    else .ok (dictSet d key newItem)
  else .ok d

/-- All overriding items, `xarray_to_na.py` lines 273-305. -/
def applyOverrides (hp : Partitions) (rule : Rule) : Dict (PyVal F) → Dict (PyVal F) → Res (Dict (PyVal F))
  | d, [] => .ok d
  | d, (key, value) :: t => do
    let d ← applyOverride hp rule d key value
    applyOverrides hp rule d t

/-- `overriders`, `xarray_to_na.py` lines 254-259. -/
def overriders (localAtts naItems : Dict (PyVal F)) : Dict (PyVal F) :=
  naItems.foldl (fun d kv => dictSet d kv.1 kv.2) localAtts

/-- The condition of `xarray_to_na.py` line 313. -/
def mustSplit (d : Dict (PyVal F)) (sizeLimit : Option Int) : Res (Option Int) :=
  match sizeLimit with
  | none => .ok none
  | some limit => do
    match ← dictGet d "FFI" with
    | .int 1001 =>
      let v ← dictGet d "V"
      let v0 ← v.item 0
      let n ← v0.len
      .ok (if (n : Int) > limit then some limit else none)
    | _ => .ok none

/-- What `writeNAFiles` leaves behind: the list of file names, the calls made, the changed dictionaries. -/
structure WriteResult (F : Type) where
  fileList : List Str
  written : List (WriteCall F)
  dicts : List (Dict (PyVal F))

/-- Configuration used by `writeNAFiles`. -/
structure WriteConfig (F : Type) where
  hp : Partitions
  rule : Rule
  addColumnHeaders : Bool
  localAtts : Dict (PyVal F)

/-- The dictionary that is written, `xarray_to_na.py` lines 269-309. -/
def prepareDict (cfg : WriteConfig F) (items : Dict (PyVal F)) (delimiter : Str) (d : Dict (PyVal F)) :
    Res (Dict (PyVal F)) := do
  let d ← applyOverrides cfg.hp cfg.rule d (overriders cfg.localAtts items)
  if cfg.addColumnHeaders then updateWithColumnHeaders d delimiter else .ok d

/-- The file or files for one dictionary, `xarray_to_na.py` lines 311-327. -/
def writeOne (emit : WriteCall F → Res Unit) (opts : WriteOpts) (name : Str) (d : Dict (PyVal F)) :
    List Str × List (WriteCall F) × Option Err :=
  match mustSplit d opts.sizeLimit with
  | .error x => ([], [], some x)
  | .ok (some limit) =>
    match writeSubsets emit d name opts limit with
    | (s, none) => (s.names, s.written, none)
    | (s, some x) => ([], s.written, some x)
  | .ok none =>
    let c : WriteCall F :=
      { name := name, dict := d, delimiter := opts.delimiter, floatFormat := opts.floatFormat,
        noHeader := opts.noHeader, annotation := opts.annotation }
    match emit c with
    | .error x => ([], [], some x)
    | .ok _ => ([name], [c], none)

/-- The loop of `writeNAFiles`, `xarray_to_na.py` lines 262-350. -/
def writeNAFilesGo (emit : WriteCall F → Res Unit) (cfg : WriteConfig F) (items : Dict (PyVal F))
    (opts : WriteOpts) : List (Str × Dict (PyVal F)) → WriteResult F → WriteResult F × Option Err
  | [], r => (r, none)
  | (name, d) :: t, r =>
    match prepareDict cfg items opts.delimiter d with
    | .error x => (r, some x)
    | .ok d' =>
      match writeOne emit opts name d' with
      | (_, written, some x) => ({ r with written := r.written ++ written, dicts := r.dicts ++ [d'] }, some x)
      | (names, written, none) =>
        writeNAFilesGo emit cfg items opts t
          { fileList := r.fileList ++ names, written := r.written ++ written, dicts := r.dicts ++ [d'] }

/-- `writeNAFiles`, `xarray_to_na.py` lines 229-365, for an object that has been converted. -/
def writeNAFiles (emit : WriteCall F → Res Unit) (cfg : WriteConfig F) (items : Dict (PyVal F))
    (opts : WriteOpts) (ncFile naFile : Option Str) (dicts : List (Dict (PyVal F))) :
    WriteResult F × Option Err :=
  match constructNAFileNames ncFile dicts.length naFile with
  | .error x => ({ fileList := [], written := [], dicts := [] }, some x)
  | .ok names => writeNAFilesGo emit cfg items opts (names.zip dicts) { fileList := [], written := [], dicts := [] }

end Nappy
