import Verif.Collector
import Verif.XarrayToNA
import Verif.Core

/-! Model of the part of `nappy/nc_interface/na_content_collector.py` that fills the NASA Ames dictionary from the
variables that were chosen (`_defineNAVars` to `_defineGeneralHeader`). The choice is in `Collector`.

Simplifications, besides those of `XarrayUtils`. The numbers 0 and 1 and the counts put among the data are `num` values.
Attributes of variables that are not strings are left out; the code lists scalar ones, except the number given by
nappy. The clock, the version and the conversion of dates are parameters. -/

namespace Nappy

variable {F : Type}

/-! ### Axes -/

/-- What `_appendAxisDefinition` appends for one axis. -/
structure AxisDef (F : Type) where
  NX : Nat
  XNAME : Str
  DX : F
  NXDEF : Nat
  X : List F
  deriving DecidableEq

/-- All differences of neighbours equal `incr`: the loops of lines 376-379 and 500-505. -/
def allSteps (env : XEnv F) (incr : F) : List F → Bool
  | x :: y :: t => env.eq (env.sub y x) incr && allSteps env incr (y :: t)
  | _ => true

/-- `_appendAxisDefinition`, lines 478-512. -/
def axisDef (env : XEnv F) (a : XAxis F) : Res (AxisDef F) := do
  let name ← a.bestName
  match a.values with
  | x :: y :: t =>
    if allSteps env (env.sub y x) a.values then
      .ok { NX := a.values.length, XNAME := name, DX := env.sub y x, NXDEF := min a.values.length 3,
            X := (x :: y :: t).take 3 }
    else .ok { NX := a.values.length, XNAME := name, DX := env.zero, NXDEF := a.values.length, X := a.values }
  | l => .ok { NX := l.length, XNAME := name, DX := env.zero, NXDEF := l.length, X := l }

/-- `DX` of the first axis, lines 367-379. -/
def firstStep (env : XEnv F) : List F → Res F
  | [] => .error .index
  | [_] => .ok env.zero
  | x :: y :: t =>
    .ok (if allSteps env (env.sub y x) (x :: y :: t) then env.sub y x else env.zero)

/-! ### Variables -/

/-- What one variable adds to the lists `VNAME`, `VMISS`, `VSCAL`, `V` or to their auxiliary counterparts. -/
structure VarItem (F : Type) where
  name : Str
  miss : F
  scal : F
  data : PyVal F

/-- Lines 345-356 and 465-474. -/
def varItem (env : XEnv F) (v : XVar F) : Res (VarItem F) := do
  let name ← v.bestName
  .ok { name := name, miss := getMissing env v, scal := env.one,
        data := pyTree (arrayAsList env (getMissing env v) v.data) }

/-- `vals[0:len(vals):n]` for `n` above zero: `k` values are still to be skipped. -/
def everyGo {α : Type} (n : Nat) : Nat → List α → List α
  | _, [] => []
  | 0, x :: xs => x :: everyGo n (n - 1) xs
  | k + 1, _ :: xs => everyGo n k xs

/-- The items of the independent variables. `aux` are the auxiliary variables that stand for them in 2110 and
2310. -/
structure IndSection (F : Type) where
  DX : List F
  NX : List Nat
  NXDEF : List Nat
  X : PyVal F
  XNAME : List Str
  aux : List (VarItem F)

def pyNats (l : List Nat) : PyVal F := pyInts (l.map Int.ofNat)

/-- "Number of '%s' values recorded in subsequent data records" and the other two names, lines 415 and 444-446. -/
def markName (name : Str) : Str :=
  "Number of '".toList ++ name ++ "' values recorded in subsequent data records".toList

def startName (name : Str) : Str := '\'' :: (name ++ "' value for first data point".toList)

def stepName (name : Str) : Str := '\'' :: (name ++ "' increment".toList)

/-- The independent variables, lines 358-450, taken from the first variable. `auxMiss` is `-9999.999`. A file of
format 1020 without `NVPM` raises `KeyError`; a step of 0 cannot be. -/
def indSection (env : XEnv F) (auxMiss : F) (ffi : Int) (nvpm : Option Nat) (v : XVar F) :
    Res (IndSection F) := do
  let ax0 ← coordByIndex v 0
  let name0 ← ax0.bestName
  let dx0 ← firstStep env ax0.values
  let step ← (if ffi = 1020 then (match nvpm with | some n => .ok n | none => .error .key) else .ok 1)
  let rest ← mapRes (axisDef env) (v.axes.drop 1)
  let s : IndSection F :=
    { DX := dx0 :: rest.map AxisDef.DX, NX := rest.map AxisDef.NX, NXDEF := rest.map AxisDef.NXDEF,
      X := (if ffi = 1001 ∨ ffi = 1010 ∨ ffi = 1020 then
          .list ((everyGo step 0 ax0.values).map .num ++ rest.map (fun d => pyNums d.X))
        else .list (pyNums ax0.values :: rest.map (fun d => pyNums d.X))),
      XNAME := name0 :: rest.map AxisDef.XNAME, aux := [] }
  if ffi = 2110 then do
    let ax1 ← coordByIndex v 1
    let nx := ax0.values.map (fun _ => ax1.values.length)
    .ok { s with NX := nx, X := .list (ax0.values.map (fun x => .list [.num x, pyNums ax1.values])),
                 aux := [{ name := markName name0, miss := auxMiss, scal := env.one, data := pyNums (nx.map env.ofNat) }] }
  else if ffi = 2310 then do
    let ax1 ← coordByIndex v 1
    let incr ← getInterval env.sub ax1.values 0 1
    let nx := ax0.values.map (fun _ => ax1.values.length)
    let dx := ax0.values.map (fun _ => incr)
    let x0 ← mapRes (fun _ => idx ax1.values 0) ax0.values
    .ok { s with NX := nx, X := .list (ax0.values.map (fun x => .list [.num x, pyNums ax1.values])), DX := dx,
                 aux := [{ name := markName name0, miss := auxMiss, scal := env.one, data := pyNums (nx.map env.ofNat) },
                         { name := startName name0, miss := auxMiss, scal := env.one, data := pyNums x0 },
                         { name := stepName name0, miss := auxMiss, scal := env.one, data := pyNums dx }] }
  else .ok s

/-- The variables and their axes: `_defineNAVars` and `_defineNAAuxVars`, lines 334-476. -/
structure Sections (F : Type) where
  vars : List (VarItem F)
  ind : IndSection F
  aux : List (VarItem F)

def defineVars (env : XEnv F) (auxMiss : F) (a : Analysis F) : Res (Sections F) :=
  match a.main with
  | [] => .error .outside
  | v :: vs => do
    let i ← varItem env v
    let ind ← indSection env auxMiss a.ffi a.nvpm v
    let is ← mapRes (varItem env) vs
    let aux ← mapRes (varItem env) a.aux
    .ok { vars := i :: is, ind := ind, aux := ind.aux ++ aux }

/-- The dictionary as it is after `_defineNAAuxVars`. -/
def varsDict (a : Analysis F) (s : Sections F) : Dict (PyVal F) :=
  [("NIV", .int a.niv)] ++ (match a.nvpm with | some n => [("NVPM", .int n)] | none => []) ++
  [("FFI", .int a.ffi), ("NLHEAD", .int (-999)), ("NV", .int s.vars.length),
   ("VNAME", pyStrs (s.vars.map VarItem.name)), ("VMISS", pyNums (s.vars.map VarItem.miss)),
   ("VSCAL", pyNums (s.vars.map VarItem.scal)), ("V", .list (s.vars.map VarItem.data)),
   ("NXDEF", pyNats s.ind.NXDEF), ("NX", pyNats s.ind.NX), ("X", s.ind.X), ("XNAME", pyStrs s.ind.XNAME),
   ("DX", pyNums s.ind.DX), ("A", .list (s.aux.map VarItem.data)),
   ("ANAME", pyStrs (s.aux.map VarItem.name)), ("AMISS", pyNums (s.aux.map VarItem.miss)),
   ("ASCAL", pyNums (s.aux.map VarItem.scal)), ("NAUXV", .int s.aux.length)]

/-! ### Global attributes -/

/-- Section `header_partitions` of `nappy/config/nappy.ini`, lines 11-22. -/
structure Headings where
  sc_start : Str
  sc_end : Str
  nc_start : Str
  nc_end : Str
  data_next : Str
  sing_start : Str
  sing_end : Str
  ncatts_start : Str
  ncatts_end : Str
  addl_globals : Str
  addl_vatts : Str

/-- The values in `nappy/config/nappy.ini`. -/
def iniHeadings : Headings :=
  { sc_start := "==== Special Comments follow ====".toList,
    sc_end := "==== Special Comments end ====".toList,
    nc_start := "==== Normal Comments follow ====".toList,
    nc_end := "==== Normal Comments end ====".toList,
    data_next := "=== Data Section begins on the next line ===".toList,
    sing_start := "== Singleton Variables defined in the source file follow ==".toList,
    sing_end := "== Singleton Variables defined in the source file end ==".toList,
    ncatts_start := "== Variable attributes from source (NetCDF) file follow ==".toList,
    ncatts_end := "== Variable attributes from source (NetCDF) file end ==".toList,
    addl_globals := "=== Additional Global Attributes defined in the source file ===".toList,
    addl_vatts := "=== Additional Variable Attributes defined in the source file ===".toList }

/-- What the collector takes from outside: number formats, the clock, the configuration. `show_` is `str(value)`,
`dateOf` is `num2date` giving year, month and day, `none` where it raises. -/
structure CollectEnv (F : Type) where
  x : XEnv F
  hp : Headings
  auxMiss : F
  show_ : PyVal F → Str
  isTime : XAxis F → Bool
  dateOf : Str → PyVal F → Option (List Int)
  today : List Int
  stamp : Str
  version : Str
  /-- keys of section `nc_attributes` of the local attributes -/
  localNc : List String

/-- `nc_to_na_map`, `nappy/config/nappy.ini` lines 36-48, for the attributes that go straight into one header
item (line 607). -/
def plainMap : Dict String :=
  [("source", "SNAME"), ("title", "MNAME"), ("file_format_index", "FFI"),
   ("no_of_nasa_ames_header_lines", "NLHEAD"), ("total_files_in_set", "NVOL"), ("file_number_in_set", "IVOL")]

/-- The keys of `nc_to_na_map` that lines 534-605 treat in their own way. -/
def specialKeys : List String :=
  ["history", "institution", "comment", "first_valid_date_of_data", "Conventions", "references"]

/-! A small matcher for the pattern of line 551, with the backtracking order of `re`. -/

/-- `(.*)`, `\s+` and literal text. -/
inductive Pat where
  | any
  | ws
  | lit (s : Str)

/-- Tries `f n`, `f (n-1)`, ..., `f lo`. -/
def tryDown {α : Type} (f : Nat → Option α) (lo : Nat) : Nat → Option α
  | 0 => if lo = 0 then f 0 else none
  | n + 1 =>
    if n + 1 < lo then none
    else match f (n + 1) with
      | some a => some a
      | none => tryDown f lo n

/-- `re.match`: the captured groups. `.` does not match a line feed. -/
def matchPats : List Pat → Str → Option (List Str)
  | [], _ => some []
  | .lit l :: ps, s => if l.isPrefixOf s then matchPats ps (s.drop l.length) else none
  | .any :: ps, s =>
    tryDown (fun n => (matchPats ps (s.drop n)).map (s.take n :: ·)) 0 (s.takeWhile (· != '\n')).length
  | .ws :: ps, s => tryDown (fun n => matchPats ps (s.drop n)) 1 (s.takeWhile isSpace).length

/-- The pattern of line 551. -/
def institutionPats : List Pat :=
  [.any, .ws, .lit "(ONAME from NASA Ames file);".toList, .ws, .any, .ws,
   .lit "(ORG from NASA Ames file).".toList]

/-- `s.replace("\n", "  ")` -/
def unfoldLines (s : Str) : Str := s.flatMap (fun c => if c = '\n' then "  ".toList else [c])

/-- `ONAME` and `ORG`, lines 549-562. -/
def splitInstitution (value : Str) : Str × Str :=
  match matchPats institutionPats value with
  | some [oname, org] => (unfoldLines oname, unfoldLines org)
  | _ => (unfoldLines value, unfoldLines value)

/-- `line.find(sub) > -1` -/
def hasSub (sub : Str) : Str → Bool
  | [] => sub.isEmpty
  | c :: cs => sub.isPrefixOf (c :: cs) || hasSub sub cs

/-- Flags and lists of the loop of lines 573-592. -/
structure CommentState where
  sFlag : Bool
  nFlag : Bool
  special : List Str
  normal : List Str
  deriving DecidableEq

/-- One line of the comment, lines 575-592. -/
def commentStep (hp : Headings) (s : CommentState) (line : Str) : CommentState :=
  if hasSub hp.sc_start line then { s with sFlag := true }
  else if hasSub hp.sc_end line then { s with sFlag := false }
  else if hasSub hp.nc_start line then { s with nFlag := true }
  else if hasSub hp.nc_end line then { s with nFlag := false }
  else if s.sFlag then { s with special := s.special ++ [line] }
  else if s.nFlag then { s with normal := s.normal ++ [line] }
  else if hasSub hp.data_next line then s
  else { s with normal := s.normal ++ [line] }

/-- The special and normal comments in the attribute `comment`, lines 564-592. -/
def parseComment (hp : Headings) (value : Str) : List Str × List Str :=
  let s := (splitP (· == '\n') value).foldl (commentStep hp)
    { sFlag := false, nFlag := false, special := [], normal := [] }
  (s.special, s.normal)

/-- The history lines, lines 536-547. -/
def historyLines (env : CollectEnv F) (value : PyVal F) : List Str :=
  (splitP (· == '\n') ("History:  ".toList ++ env.stamp ++ " - Converted to NASA Ames format using nappy-".toList
      ++ env.version ++ ".\n  ".toList ++ env.show_ value)).map
    (fun h => if h.take 8 != "History:".toList then "  ".toList ++ h else h)

/-- What `_defineNAGlobals` works on: the dictionary, the three lists `extra_comments`, `self.history`. -/
structure GlobState (F : Type) where
  dict : Dict (PyVal F)
  extra0 : List Str
  extra1 : List Str
  extra2 : List Str
  history : Option (List Str)

/-- `type(value) in (str, int, float)` -/
def PyVal.plain : PyVal F → Bool
  | .str _ => true
  | .int _ => true
  | .num _ => true
  | _ => false

/-- One attribute, lines 528-609. -/
def globStep (env : CollectEnv F) (s : GlobState F) (key : String) (value : PyVal F) : Res (GlobState F) :=
  if key != "first_valid_date_of_data" && !value.plain then .ok s
  else if key = "history" then .ok { s with history := some (historyLines env value) }
  else if key = "institution" then
    match value with
    | .str v =>
      let p := splitInstitution v
      .ok { s with dict := dictSet (dictSet s.dict "ONAME" (.str p.1)) "ORG" (.str p.2) }
    | _ => .error .type
  else if key = "comment" then
    match value with
    | .str v =>
      let p := parseComment env.hp v
      .ok { s with extra0 := s.extra0 ++ p.1, extra1 := s.extra1 ++ p.2 }
    | _ => .error .attribute
  else if key = "first_valid_date_of_data" then .ok { s with dict := dictSet s.dict "DATE" value }
  else match dictGet? plainMap key with
    | some item => .ok { s with dict := dictSet s.dict item value }
    | none => .ok { s with extra2 := s.extra2 ++ [key.toList ++ ":   ".toList ++ env.show_ value] }

def globGo (env : CollectEnv F) : GlobState F → Dict (PyVal F) → Res (GlobState F)
  | s, [] => .ok s
  | s, (k, v) :: t => do
    let s ← globStep env s k v
    globGo env s t

/-- `_defineNAGlobals`, lines 514-609. A local attribute that is not in the map raises in line 525, where `key` has
no value yet. -/
def defineGlobals (env : CollectEnv F) (d : Dict (PyVal F)) (globals : Dict (PyVal F)) : Res (GlobState F) :=
  if env.localNc.all (fun k => specialKeys.contains k || dictHas plainMap k) then
    globGo env { dict := d, extra0 := [], extra1 := [], extra2 := [], history := none } globals
  else .error .unbound

/-! ### Comments -/

/-- The normal comments before they are cleaned, lines 623-649. -/
def rawNormal (hp : Headings) (s : GlobState F) : List Str :=
  let l := s.extra2 ++ (if s.extra1 = [] then [] else hp.addl_globals :: s.extra1) ++ s.history.getD []
  if l = [] then [] else hp.nc_start :: l ++ [[], hp.nc_end, hp.data_next]

/-- "  Variable %s: %s" -/
def variableLine (name best : Str) : Str := "  Variable ".toList ++ name ++ ": ".toList ++ best

/-- "    %s = %s" for every attribute -/
def attrLines (attrs : Dict Str) : List Str :=
  attrs.map (fun kv => "    ".toList ++ kv.1.toList ++ " = ".toList ++ kv.2)

/-- The lines for the singletons, lines 670-683. -/
def singletonLines (hp : Headings) (zero : List (XVar F)) : Res (List Str) := do
  let ls ← mapRes (fun v : XVar F => do
    let n ← v.bestName
    .ok (variableLine v.name n :: attrLines v.attrs)) zero
  let l := ls.flatten
  .ok (if l = [] then [] else hp.sing_start :: l ++ [hp.sing_end])

/-- The lines for the attributes of the main variables, lines 686-713, without what is put in front once. -/
def varAttrLines (main : List (XVar F)) : Res (List Str) := do
  let ls ← mapRes (fun v : XVar F => do
    let n ← v.bestName
    .ok (if v.attrs = [] then [] else variableLine v.name n :: attrLines v.attrs)) main
  .ok ls.flatten

/-- The special comments before they are cleaned, lines 651-718. The singletons and the headings of the attributes
only go in if there is no special comment and some variable has an attribute (lines 700-705). -/
def rawSpecial (hp : Headings) (extra0 : List Str) (zero main : List (XVar F)) : Res (List Str) := do
  let sing ← singletonLines hp zero
  let atts ← varAttrLines main
  if extra0 = [] then
    .ok (if atts = [] then []
      else hp.sc_start :: sing ++ [hp.addl_vatts, hp.ncatts_start] ++ atts ++ [hp.ncatts_end, hp.sc_end])
  else .ok (hp.sc_start :: extra0 ++ atts ++ (if atts = [] then [] else [hp.ncatts_end]) ++ [hp.sc_end])

/-- The lines of one comment: the ones that differ from the first are indented, lines 726-732. -/
def indentLines (c : Str) : List Str :=
  let ls := splitP (· == '\n') c
  ls.map (fun l => if some l != ls.head? then "  ".toList ++ l else l)

/-- Blank comments are left out, the others are split into lines, lines 720-743. -/
def cleanComments (l : List Str) : List Str :=
  (l.filter (fun c => !(strip c).isEmpty)).flatMap indentLines

/-- `_defineNAComments`, lines 611-749: the items `NCOM`, `NNCOML`, `SCOM`, `NSCOML`. The attribute `NCOM` of line
621 never exists. -/
def defineComments (env : CollectEnv F) (a : Analysis F) (s : GlobState F) : Res (Dict (PyVal F)) := do
  let scom ← rawSpecial env.hp s.extra0 a.zero a.main
  let n := cleanComments (rawNormal env.hp s)
  let c := cleanComments scom
  .ok (dictSet (dictSet (dictSet (dictSet s.dict "NCOM" (pyStrs n)) "NNCOML" (.int n.length))
    "SCOM" (pyStrs c)) "NSCOML" (.int c.length))

/-! ### General header -/

/-- The first number in nested lists, lines 773-777. -/
def firstNumber : PyVal F → Option (PyVal F)
  | .list [] => none
  | .list (v :: _) => firstNumber v
  | v => some v

/-- `DATE`, lines 768-791. -/
def headerDate (env : CollectEnv F) (ax0 : XAxis F) (x : PyVal F) (old : Option (PyVal F)) : PyVal F :=
  let unknown : PyVal F := .list [.int 999, .int 999, .int 999]
  if env.isTime ax0 then
    match ax0.encUnits, firstNumber x with
    | some u, some f =>
      match env.dateOf u f with
      | some l => .list (l.map .int)
      | none => unknown
    | _, _ => unknown
  else old.getD unknown

/-- `_defineGeneralHeader`, lines 751-798, without `header_items`, which no caller gives. -/
def generalHeader (env : CollectEnv F) (ax0 : XAxis F) (x : PyVal F) (d : Dict (PyVal F)) : Dict (PyVal F) :=
  let d := if dictHas d "RDATE" then d else dictSet d "RDATE" (.list (env.today.map .int))
  let d := dictSet d "DATE" (headerDate env ax0 x (dictGet? d "DATE"))
  dictSet (dictSet d "IVOL" (.int 1)) "NVOL" (.int 1)

/-- `collectNAContent`, lines 84-111, once the variables are chosen: the dictionary. -/
def collectDict (env : CollectEnv F) (globals : Dict (PyVal F)) (a : Analysis F) : Res (Dict (PyVal F)) := do
  let s ← defineVars env.x env.auxMiss a
  let g ← defineGlobals env (varsDict a s) globals
  let d ← defineComments env a g
  match a.main with
  | [] => .error .outside
  | v :: _ => do
    let ax0 ← coordByIndex v 0
    .ok (generalHeader env ax0 s.ind.X d)

/-- `convert`, `xarray_to_na.py` lines 72-130, with the dictionaries. -/
def convertDicts (env : CollectEnv F) (showTree : Tree F → Str) (requested : Option Int)
    (globals : Dict (PyVal F)) (fuel : Nat) (vars : List (XVar F)) :
    Res (Option (List (Dict (PyVal F)))) := do
  let passes ← convert env.x showTree requested fuel vars
  match passes with
  | none => .ok none
  | some l => do
    let ds ← mapRes (collectDict env globals) l
    .ok (some ds)

end Nappy
