import Verif.CollectDict
import Verif.XarrayToNA
import Verif.NAToXarray
import Verif.Open

/-!
Model of `nappy/nappy_api.py` and of the classes it drives, `nappy/nc_interface/nc_to_na.py` and
`nappy/nc_interface/na_to_nc.py`. A NetCDF file is the list of its variables and its attributes, as xarray gives them;
how xarray reads and writes them is not modelled. Logging is left out.
-/

namespace Nappy

variable {F : Type}

/-! ### From NetCDF to NASA Ames -/

/-- A NetCDF file as xarray gives it: `ds.variables` in their order (coordinates included) and `ds.attrs`. -/
structure NCFile (F : Type) where
  vars : List (XVar F)
  attrs : Dict (PyVal F)

/-- The names in `bounds` attributes, `nc_to_na.py` lines 78-81. -/
def boundsVars (vars : List (XVar F)) : List Str := vars.filterMap (fun v => dictGet? v.attrs "bounds")

/-- Whether a variable is taken, `nc_to_na.py` lines 84-89. -/
def takesVar (vars : List (XVar F)) (varIds : Option (List Str)) (excludeVars : List Str) (v : XVar F) : Bool :=
  (match varIds with
    | none => true
    | some l => l.contains v.name) &&
  !fuzzyContains v.name excludeVars && !(boundsVars vars).contains v.name

/-- The new array made for a single value, `nc_to_na.py` lines 94-97: the encoding is lost. -/
def singleValue (v : XVar F) : XVar F := if v.rank = 0 then { v with miss := none, encUnits := none } else v

/-- `_readXarrayFile`, `nc_to_na.py` lines 61-102. -/
def readXarrayFile (vars : List (XVar F)) (varIds : Option (List Str)) (excludeVars : List Str) : List (XVar F) :=
  (vars.filter (takesVar vars varIds excludeVars)).map singleValue

/-- The arguments of `convertNCToNA`, `nappy_api.py` lines 239-243. -/
structure NCToNAArgs (F : Type) where
  ncFile : Str
  naFile : Option Str
  varIds : Option (List Str)
  naItems : Dict (PyVal F)
  onlyNames : Bool
  excludeVars : List Str
  requestedFFI : Option Int
  opts : WriteOpts

/-- What the functions use that is not an argument: the files, the configuration and number formats. -/
structure ApiEnv (F : Type) where
  openNC : Str → Res (NCFile F)
  collect : CollectEnv F
  showTree : Tree F → Str
  cfg : WriteConfig F

/-- What a call does: the files written, and what it returns. -/
structure Run (F : Type) where
  calls : List (WriteCall F)
  result : Res (List Str)

/-- The dictionaries of an `NCToNA` object, `nc_to_na.py` lines 50-58 and `convert`. `convert` leaves an empty list
behind if nothing was found. -/
def ncDicts (env : ApiEnv F) (a : NCToNAArgs F) : Res (List (Dict (PyVal F))) := do
  let nc ← env.openNC a.ncFile
  let vars := readXarrayFile nc.vars a.varIds a.excludeVars
  let ds ← convertDicts env.collect env.showTree a.requestedFFI nc.attrs vars.length vars
  .ok (ds.getD [])

/-- `convertNCToNA`, `nappy_api.py` lines 271-295. -/
def convertNCToNA (emit : WriteCall F → Res Unit) (env : ApiEnv F) (a : NCToNAArgs F) : Run F :=
  let naFile := a.naFile.getD (getFileNameWithNewExtension a.ncFile "na".toList)
  match ncDicts env a with
  | .error x => { calls := [], result := .error x }
  | .ok ds =>
    if a.onlyNames then { calls := [], result := constructNAFileNames (some a.ncFile) ds.length (some naFile) }
    else match writeNAFiles emit env.cfg a.naItems a.opts (some a.ncFile) (some naFile) ds with
      | (r, none) => { calls := r.written, result := .ok r.fileList }
      | (r, some x) => { calls := r.written, result := .error x }

/-- `convertNCToCSV`, `nappy_api.py` lines 298-308. `a` are the other arguments, with the defaults of `convertNCToNA`
for those that are not given. -/
def convertNCToCSV (emit : WriteCall F → Res Unit) (env : ApiEnv F) (csvFile : Option Str) (a : NCToNAArgs F) :
    Run F :=
  match csvFile with
  | none => convertNCToNA emit env
      { a with naFile := some (getFileNameWithNewExtension a.ncFile "csv".toList),
               opts := { a.opts with delimiter := [','] } }
  | some _ => convertNCToNA emit env a

/-- `convertXarrayObjectsToNA`, `nappy_api.py` lines 311-349: the module imported in line 340 does not exist. -/
def convertXarrayObjectsToNA (_vars : List (XVar F)) (_globals : Dict (PyVal F)) (_naFile : Str) : Run F :=
  { calls := [], result := .error .import }

/-- `convertXarrayObjectsToCSV`, `nappy_api.py` lines 352-358. -/
def convertXarrayObjectsToCSV (vars : List (XVar F)) (globals : Dict (PyVal F)) (csvFile : Str) : Run F :=
  convertXarrayObjectsToNA vars globals csvFile

/-! ### From NASA Ames -/

/-- `convertNAToCSV`, `nappy_api.py` lines 214-236, on the text of the file: the name of the file written and what is
written. `table` are the annotations. The dictionary of the object read is taken to give the same object again. -/
def convertNAToCSV (cd : Codec F) (table : String → Str) (naFile text : Str) (csvFile : Option Str)
    (annotation _noHeader : Bool) : Res (Str × Out) := do
  let o ← openNA cd 0 text
  let o ← o.readData cd text
  let name := csvFile.getD (getFileNameWithNewExtension naFile "csv".toList)
  let _ ← getNAFileClass o.FFI
  let env : Env F := { cd := cd, delim := [','], ann := if annotation then some table else none }
  .ok (name, (o.write env false).2)

/-- `readXarrayObjectsFromNA`, `nappy_api.py` lines 396-414. -/
def readXarrayObjectsFromNA (cd : Codec F) (env : ToXEnv F) (text : Str) : Res (ToXResult F) := do
  let o ← openNA cd 0 text
  let o ← o.readData cd text
  toXarray env [] .all .all none o

/-- `getXarrayVariableFromNA`, `nappy_api.py` lines 417-430. -/
def getXarrayVariableFromNA (cd : Codec F) (env : ToXEnv F) (text : Str) (var : SelItem) : Res (XVar F) := do
  let o ← openNA cd 0 text
  let o ← o.readData cd text
  let r ← toXarray env [] (.items [var]) .all none o
  idx r.vars 0

/-- `writeNADictToNC`, `nappy_api.py` lines 361-393: the class asked for in line 377 does not exist. -/
def writeNADictToNC (_d : Dict (PyVal F)) (_ncFile : Str) : Res Unit := .error .attribute

/-- `fix_ints`, `na_to_nc.py` lines 63-79, as far as it is seen: the empty text is a sequence of integers and becomes
an empty list. -/
def fixInts : PyVal F → PyVal F
  | .str [] => .list []
  | v => v

/-- The arguments of `convertNAToNC`, `nappy_api.py` lines 172-175, for `NAToNC`. -/
structure NAToNCArgs (F : Type) where
  ncFile : Option Str
  mode : Str
  mainVars : Selection
  auxVars : Selection
  globalAttributes : Dict (PyVal F)
  timeUnits : Option Str
  timeWarning : Bool
  renameVariables : Renames

/-- A dictionary of arrays by name, `na_to_nc.py` line 104. -/
def byName (vars : List (XVar F)) : List (XVar F) :=
  vars.foldl (fun d v => if d.any (fun w => w.name = v.name) then d.map (fun w => if w.name = v.name then v else w)
    else d ++ [v]) []

/-- `writeNCFile`, `na_to_nc.py` lines 88-112: the data set written. `mode` is not used. The attributes of variables
are texts here, so `fix_ints` acts on the empty ones, which are not modelled. -/
def writeNCFile (r : ToXResult F) (_mode : Str) : NCFile F :=
  { vars := byName (r.vars ++ r.aux), attrs := r.attrs.map (fun kv => (kv.1, fixInts kv.2)) }

/-- `convertNAToNC`, `nappy_api.py` lines 195-211: name and content of the file written. `typed` are the answers of the
user to questions about the units of time. -/
def convertNAToNC (cd : Codec F) (env : ToXEnv F) (typed : List Str) (naFile text : Str)
    (a : NAToNCArgs F) : Res (Str × NCFile F) := do
  let o ← openNA cd 0 text
  let o ← o.readData cd text
  let env := { env with renames := a.renameVariables, answers := if a.timeWarning then some typed else none }
  let r ← toXarray env a.globalAttributes a.mainVars a.auxVars a.timeUnits o
  .ok (a.ncFile.getD (getFileNameWithNewExtension naFile "nc".toList), writeNCFile r a.mode)

end Nappy
