import Verif.Api
import Verif.CompareNA
import Verif.Getopt

/-!
Model of the command line tools `nappy/script/nc2na.py`, `nc2csv.py` and `na2nc.py`, and of `parseArgs` and `main` of
`nappy/utils/compare_na.py`. What they print is left out.
-/

namespace Nappy

variable {F : Type}

/-- `nappy.default_delimiter`, `nappy/config/nappy.ini` line 4. -/
def defaultDelimiter : Str := "    ".toList

/-- `nappy.default_float_format`, `nappy/config/nappy.ini` line 5. -/
def defaultFloatFormat : Str := "%.10g".toList

/-! ### nc2na and nc2csv -/

/-- The argument dictionary of `nc2na.py` and `nc2csv.py`. -/
structure NcArgs where
  ncFile : Option Str
  varIds : Option (List Str)
  requestedFFI : Option Int
  floatFormat : Str
  delimiter : Str
  sizeLimit : Option Int
  excludeVars : List Str
  naItems : List (Str × Str)
  onlyNames : Bool
  naFile : Option Str
  noHeader : Bool
  annotation : Bool

/-- The defaults, `nc2na.py` lines 65-76. -/
def ncDefaults : NcArgs :=
  { ncFile := none, varIds := none, requestedFFI := none, floatFormat := defaultFloatFormat,
    delimiter := defaultDelimiter, sizeLimit := none, excludeVars := [], naItems := [], onlyNames := false,
    naFile := none, noHeader := false, annotation := false }

/-- `nc2na.py` line 79. -/
def ncShorts : Str := "i:o:v:f:d:l:e:".toList

/-- `nc2na.py` lines 80-81. -/
def ncLongs : List Str :=
  ["ffi=".toList, "overwrite-metadata=".toList, "names-only".toList, "no-header".toList, "annotated".toList]

/-- The body of the loop, `nc2na.py` lines 86-111. -/
def ncStep (a : NcArgs) (arg value : Str) : Res NcArgs :=
  if arg = "-i".toList then .ok { a with ncFile := some value }
  else if arg = "-o".toList then .ok { a with naFile := some value }
  else if arg = "-v".toList then .ok { a with varIds := some (splitComma value) }
  else if arg = "--ffi".toList then do
    let n ← pyInt value
    .ok { a with requestedFFI := some n }
  else if arg = "-f".toList then .ok { a with floatFormat := value }
  else if arg = "-d".toList then .ok { a with delimiter := value }
  else if arg = "--limit_ffi_1001_rows".toList then do
    let n ← pyInt value
    .ok { a with sizeLimit := some n }
  else if arg = "-e".toList then .ok { a with excludeVars := splitComma value }
  else if arg = "--overwrite-metadata".toList then do
    let d ← makeDictFromCommaSepString value
    .ok { a with naItems := d }
  else if arg = "--names-only".toList then .ok { a with onlyNames := true }
  else if arg = "--no-header".toList then .ok { a with noHeader := true }
  else if arg = "--annotated".toList then .ok { a with annotation := true }
  else .error .exit

/-- The loop of `parseArgs`. -/
def ncLoop (a : NcArgs) : List (Str × Str) → Res NcArgs
  | [] => .ok a
  | (arg, value) :: t => do
    let a ← ncStep a arg value
    ncLoop a t

/-- `parseArgs`, `nc2na.py` lines 57-116 and `nc2csv.py` lines 56-115. `exitNicely` raises `SystemExit`. -/
def ncParseArgs (args : List Str) : Res NcArgs :=
  match getopt ncShorts ncLongs args with
  | .error _ => .error .exit
  | .ok (argList, _) => do
    let a ← ncLoop ncDefaults argList
    if a.ncFile = none ∨ a.ncFile = some [] then .error .exit else .ok a

/-- `**arg_dict`, `nc2na.py` line 128, with the name of the input file taken out. -/
def NcArgs.toApi (a : NcArgs) (ncFile : Str) : NCToNAArgs F :=
  { ncFile := ncFile, naFile := a.naFile, varIds := a.varIds,
    naItems := a.naItems.map (fun kv => (String.ofList kv.1, .str kv.2)), onlyNames := a.onlyNames,
    excludeVars := a.excludeVars, requestedFFI := a.requestedFFI,
    opts := { delimiter := a.delimiter, floatFormat := a.floatFormat, annotation := a.annotation,
              sizeLimit := a.sizeLimit, noHeader := a.noHeader } }

/-- `nc2na(args)`, `nc2na.py` lines 119-141, which is also `nc2csv(args)`, `nc2csv.py` lines 118-140. -/
def nc2na (emit : WriteCall F → Res Unit) (env : ApiEnv F) (args : List Str) : Run F :=
  match ncParseArgs args with
  | .error x => { calls := [], result := .error x }
  | .ok a => convertNCToNA emit env (a.toApi (a.ncFile.getD []))

/-- The command `nc2csv` (`setup.py` line 70): the function `nc2csv` with `sys.argv[1:]`. -/
def nc2csvCommand (emit : WriteCall F → Res Unit) (env : ApiEnv F) (args : List Str) : Run F := nc2na emit env args

/-- `nc2csv.py` started as a program, lines 142-148. -/
def nc2csvProgram (emit : WriteCall F → Res Unit) (env : ApiEnv F) (args : List Str) : Run F :=
  if args.contains "-d".toList then { calls := [], result := .error .exit }
  else nc2na emit env (args ++ ["-d".toList, ",".toList])

/-! ### na2nc -/

/-- The argument dictionary of `na2nc.py`. `variables` and `aux_variables` stay `"all"`. -/
structure Na2ncArgs where
  naFile : Option Str
  mode : Str
  globalAttributes : List (Str × Str)
  renameVariables : List (Str × Str)
  timeUnits : Option Str
  timeWarning : Bool
  ncFile : Option Str

/-- `na2nc.py` lines 57-65. -/
def na2ncDefaults : Na2ncArgs :=
  { naFile := none, mode := ['w'], globalAttributes := [], renameVariables := [], timeUnits := none,
    timeWarning := true, ncFile := none }

/-- `na2nc.py` line 68. -/
def na2ncShorts : Str := "i:o:m:v:a:g:t:nr:".toList

/-- The body of the loop, `na2nc.py` lines 73-94. -/
def na2ncStep (a : Na2ncArgs) (arg value : Str) : Res Na2ncArgs :=
  if arg = "-i".toList then .ok { a with naFile := some value }
  else if arg = "-o".toList then .ok { a with ncFile := some value }
  else if arg = "-m".toList then .ok { a with mode := value }
  else if arg = "-v".toList then .error .exit
  else if arg = "-a".toList then .error .exit
  else if arg = "-g".toList then do
    let l ← makeListFromCommaSepString value
    .ok { a with globalAttributes := l }
  else if arg = "-t".toList then .ok { a with timeUnits := some value }
  else if arg = "-n".toList then .ok { a with timeWarning := false }
  else if arg = "-r".toList then do
    let d ← makeDictFromCommaSepString value
    .ok { a with renameVariables := d }
  else .error .exit

/-- The loop of `parseArgs`. -/
def na2ncLoop (a : Na2ncArgs) : List (Str × Str) → Res Na2ncArgs
  | [] => .ok a
  | (arg, value) :: t => do
    let a ← na2ncStep a arg value
    na2ncLoop a t

/-- `nc_file` made from `na_file`, `na2nc.py` lines 100-102. -/
def autoNCName (fn : Str) : Str := (if lastThree fn = ".na".toList then dropThree fn else fn) ++ ".nc".toList

/-- `parseArgs`, `na2nc.py` lines 49-106: the input file and the other arguments. -/
def na2ncParseArgs (args : List Str) : Res (Str × Na2ncArgs) :=
  match getopt na2ncShorts [] args with
  | .error _ => .error .exit
  | .ok (argList, _) => do
    let a ← na2ncLoop na2ncDefaults argList
    match a.naFile with
    | none | some [] => .error .exit
    | some fn =>
      .ok (fn, if a.ncFile = none ∨ a.ncFile = some [] then { a with ncFile := some (autoNCName fn) } else a)

/-- `**arg_dict`, `na2nc.py` line 118. -/
def Na2ncArgs.toApi (a : Na2ncArgs) : NAToNCArgs F :=
  { ncFile := a.ncFile, mode := a.mode, mainVars := .all, auxVars := .all,
    globalAttributes := a.globalAttributes.map (fun kv => (String.ofList kv.1, .str kv.2)), timeUnits := a.timeUnits,
    timeWarning := a.timeWarning, renameVariables := a.renameVariables }

/-- `na2nc(args)`, `na2nc.py` lines 109-119. `file` gives the text of a file. -/
def na2nc (cd : Codec F) (env : ToXEnv F) (typed : List Str) (file : Str → Res Str) (args : List Str) :
    Res (Str × NCFile F) := do
  let (fn, a) ← na2ncParseArgs args
  let text ← file fn
  convertNAToNC cd env typed fn text a.toApi

/-! ### compare_na -/

/-- The body of the loop of `parseArgs`, `compare_na.py` lines 227-240. -/
def cmpStep (a : CmpOpts) (arg value : Str) : Res CmpOpts :=
  if arg = "--header-only".toList ∨ arg = "-h".toList then .ok { a with body := false }
  else if arg = "--body-only".toList ∨ arg = "-b".toList then .ok { a with header := false }
  else if arg = "--number-strict".toList ∨ arg = "-n".toList then .ok { a with clever := false }
  else if arg = "--approx-equal".toList ∨ arg = "-a".toList then .ok { a with approx := true }
  else if arg = "--delimiter-1".toList ∨ arg = "-1".toList then .ok { a with d1 := some value }
  else if arg = "--delimiter-2".toList ∨ arg = "-2".toList then .ok { a with d2 := some value }
  else .error .exit

/-- The loop of `parseArgs`. -/
def cmpLoop (a : CmpOpts) : List (Str × Str) → Res CmpOpts
  | [] => .ok a
  | (arg, value) :: t => do
    let a ← cmpStep a arg value
    cmpLoop a t

/-- `compare_na.py` line 223. -/
def cmpShorts : Str := "hbna1:2:".toList

/-- `compare_na.py` lines 223-224. -/
def cmpLongs : List Str :=
  ["header-only".toList, "body-only".toList, "number-strict".toList, "approx-equal".toList, "delimiter-1=".toList,
    "delimiter-2=".toList]

/-- `parseArgs`, `compare_na.py` lines 210-248. Errors of `getopt` are not caught. -/
def cmpParseArgs (args : List Str) : Res (List Str × CmpOpts) := do
  let (argList, files) ← getopt cmpShorts cmpLongs args
  let a ← cmpLoop { header := true, body := true, clever := true, approx := false, d1 := none, d2 := none } argList
  if files.length ≠ 2 then .error .exit
  else if !a.header && !a.body then .error .exit
  else .ok (files, a)

/-- `main`, `compare_na.py` lines 251-254: there is no function `apply`. -/
def cmpMain (args : List Str) : Res Unit := do
  let _ ← cmpParseArgs args
  .error .name

end Nappy
