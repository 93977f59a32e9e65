import Verif.Config

/-!
Model of what `RawConfigParser` (Python 3.11, with `optionxform = str` as in `parse_config.py` lines 29-30) makes of
the text of a configuration file, and of `getDefault` and `getDebug` in `common_utils.py`. All exceptions of the parser
are `exn`; Python raises some of them only at the end of the file.
-/

namespace Nappy

/-- State of `RawConfigParser._read`: the sections so far with the lines of each value, the current section and option,
and the indentation of the last line that was not a continuation. -/
structure IniState where
  secs : List (Str × List (Str × List Str))
  cur : Option Str
  opt : Option Str
  indent : Nat

/-- `cursect[optname].append(piece)` -/
def addPiece (secs : List (Str × List (Str × List Str))) (sec opt piece : Str) :
    List (Str × List (Str × List Str)) :=
  let opts := (kvGet? secs sec).getD []
  kvSet secs sec (kvSet opts opt ((kvGet? opts opt).getD [] ++ [piece]))

/-- `SECTCRE`, `\[(?P<header>.+)\]` matched at the start: up to the last bracket. -/
def sectionName? (v : Str) : Option Str :=
  match v with
  | '[' :: r =>
    match r.reverse.dropWhile (· != ']') with
    | _ :: c :: t => some (c :: t).reverse
    | _ => none
  | _ => none

/-- `_optcre`, `(?P<option>.*?)\s*(?:(?P<vi>=|:)\s*(?P<value>.*))$`: the name ends at the first delimiter. -/
def optionParts? (v : Str) : Option (Str × Str) :=
  match v.dropWhile (fun c => c != '=' && c != ':') with
  | _ :: r => some (rstrip (v.takeWhile (fun c => c != '=' && c != ':')), strip r)
  | [] => none

/-- A line that is not a continuation: the head of a section or an option. -/
def iniHead (s : IniState) (indent : Nat) (value : Str) : Res IniState :=
  match sectionName? value with
  | some name =>
    if (kvGet? s.secs name).isSome then
      if name = "DEFAULT".toList then .ok { s with cur := some name, opt := none, indent := indent }
      else .error .exn
    else .ok { secs := s.secs ++ [(name, [])], cur := some name, opt := none, indent := indent }
  | none =>
    match s.cur, optionParts? value with
    | some sec, some (k, v) =>
      let opts := (kvGet? s.secs sec).getD []
      if k = [] then .error .exn
      else if (kvGet? opts k).isSome then .error .exn
      else .ok { s with secs := kvSet s.secs sec (opts ++ [(k, [v])]), opt := some k, indent := indent }
    | _, _ => .error .exn

/-- One line: blank, a comment, a continuation or something new. -/
def iniStep (s : IniState) (line : Str) : Res IniState :=
  match strip line with
  | [] =>
    match s.cur, s.opt with
    | some sec, some o => .ok { s with secs := addPiece s.secs sec o [] }
    | _, _ => .ok s
  | c :: t =>
    if c = '#' ∨ c = ';' then .ok s
    else
      match s.cur, s.opt with
      | some sec, some o =>
        if s.indent < (line.takeWhile isSpace).length then
          .ok { s with secs := addPiece s.secs sec o (c :: t) }
        else iniHead s (line.takeWhile isSpace).length (c :: t)
      | _, _ => iniHead s (line.takeWhile isSpace).length (c :: t)

/-- The loop over the lines. -/
def iniLoop : IniState → List Str → Res IniState
  | s, [] => .ok s
  | s, l :: ls => do
    let s ← iniStep s l
    iniLoop s ls

/-- `conf.read`, then `conf.sections()`, `conf.options(section)` and `conf.get(section, item)` for all of them: the lines
of a value are joined, and the options of the section `DEFAULT` belong to every section that has none of this name. -/
def parseIni (text : Str) : Res Parsed := do
  let s ← iniLoop { secs := [], cur := none, opt := none, indent := 0 } (fileLines text)
  let joined := s.secs.map (fun so => (so.1, so.2.map (fun kv => (kv.1, rstrip (join ['\n'] kv.2)))))
  let defaults := (kvGet? joined "DEFAULT".toList).getD []
  .ok ((joined.filter (fun so => so.1 ≠ "DEFAULT".toList)).map
    (fun so => (so.1, so.2 ++ defaults.filter (fun kv => (kvGet? so.2 kv.1).isNone))))

/-- The configuration files by name; `conf.read` passes over files that do not exist. -/
def CfgFiles.ofTexts (read : Str → Option Str) (default : Str) (inBase : Str → Str) : CfgFiles :=
  { parse := fun f => match read f with
      | none => .ok []
      | some t => parseIni t,
    default := default, inBase := inBase }

/-- `getDefault(item)`, `common_utils.py` lines 147-152. -/
def getDefault (fs : CfgFiles) (s : CfgState) (item : Str) : Res (CfgState × Word) := do
  let (s, d) ← getConfigDict fs fs.default s
  let main ← kvGet d "main".toList
  let w ← kvGet (s.store[main]?.getD []) (.one item)
  .ok (s, w)

/-- `getDebug()`, `common_utils.py` lines 139-144, with `eval` for `True` and `False`. -/
def getDebug (fs : CfgFiles) (s : CfgState) : Res (CfgState × Bool) := do
  let (s, w) ← getDefault fs s "DEBUG".toList
  if w = .one "True".toList then .ok (s, true)
  else if w = .one "False".toList then .ok (s, false)
  else .error .outside

/-- `bool(...)` of a text or tuple: whether it is not empty. -/
def Word.truthy : Word → Bool
  | .one s => !s.isEmpty
  | .many l => !l.isEmpty

/-- `add_column_headers`, `xarray_to_na.py` line 35. -/
def addColumnHeaders (fs : CfgFiles) (s : CfgState) : Res (CfgState × Bool) := do
  let (s, w) ← getDefault fs s "add_column_headers".toList
  .ok (s, w.truthy)

end Nappy
