import Verif.TextParser
import Verif.PyVal

/-! Model of `nappy/utils/common_utils.py`. `getVersion`, `getDebug` and `getDefault` read constants and
are not modelled; `get_rank_zero_array_value` is about numpy scalars and is not modelled. -/

namespace Nappy

/-- The formats with a module `nappy/na_file/na_file_<FFI>.py`. -/
def supportedFFIs : List Int := [1001, 1010, 1020, 2010, 2110, 2160, 2310, 3010, 4010]

/-- `getNAFileClass(ffi)`, `common_utils.py` lines 25-32: the import fails unless a module exists for the
format. The class is represented by its FFI. -/
def getNAFileClass (ffi : Int) : Res Int :=
  if ffi ∈ supportedFFIs then .ok ffi else .error .import

/-- `readFFI(filename, ignore_header_lines)`, `common_utils.py` lines 35-48, on the text of the file. -/
def readFFI (text : Str) (ignoreHeaderLines : Nat) : Res Int := do
  let (topline, _) := readline ((fileLines text).drop ignoreHeaderLines)
  let items ← readItemsFromLine topline 2 pyInt
  match items.getLast? with
  | some ffi => .ok ffi
  | none => .error .index

/-- `chooseFFI(na_dict)`, `common_utils.py` lines 51-92. A `NIV` that is a float
is not modelled (`Err.outside`); strings, lists and `None` cannot be compared with a number. -/
def chooseFFI {F : Type} (d : Dict (PyVal F)) : Res Int := do
  match ← dictGet d "NIV" with
  | .int niv =>
    if niv > 4 then .error .exn
    else if niv = 4 then .ok 4010
    else if niv = 3 then .ok 3010
    else if niv = 2 then do
      let x0 ← (← dictGet d "X").item 0
      match ← x0.item 0 with
      | .str _ => .ok 2160
      | _ =>
        match ← x0.item 1 with
        | .list l => if l.length > 1 then .ok 2110 else if l.length = 1 then .ok 2310 else .ok 2010
        | _ => .ok 2010
    else if niv = 1 then
      if !dictHas d "NAUXV" then .ok 1001
      else if dictHas d "NVPM" then .ok 1020
      else .ok 1010
    else .error .exn
  | .num _ => .error .outside
  | _ => .error .type

/-- `s[-4:]` -/
def lastFour (s : Str) : Str := s.drop (s.length - 4)

/-- `s.find(".")`, `none` for -1 -/
def findDot (s : Str) : Option Nat := s.findIdx? (· == '.')

/-- `getFileNameWithNewExtension(input_file, format)`, `common_utils.py` lines 95-107. Line 105 adds
`found` to the full length of the name. -/
def getFileNameWithNewExtension (inputFile format : Str) : Str :=
  let baseName := match findDot (lastFour inputFile) with
    | some found => inputFile.take (inputFile.length + found)
    | none => inputFile
  baseName ++ ['.'] ++ format

/-- Where a slice bound points to in a list of length `n`: negative bounds count from the end, and bounds
outside the list are moved to its ends. -/
def sliceBound (n : Nat) (i : Int) : Nat :=
  if i < 0 then (n + i).toNat else min n i.toNat

/-- `l[a:b]` for any integers -/
def slice {α : Type} (l : List α) (a b : Int) : List α :=
  (l.take (sliceBound l.length b)).drop (sliceBound l.length a)

/-- `indict["X"][start:end]` on a dynamically typed value -/
def PyVal.slice {F : Type} (v : PyVal F) (a b : Int) : Res (PyVal F) :=
  match v with
  | .list l => .ok (.list (Nappy.slice l a b))
  | .str s => .ok (.str (Nappy.slice s a b))
  | _ => .error .type

/-- `modifyNADictCopy(indict, v_new, start, end, ivol, nvol)`, `common_utils.py` lines 110-127. -/
def modifyNADictCopy {F : Type} (indict : Dict (PyVal F)) (vNew : PyVal F) (start stop : Int)
    (ivol nvol : Int) : Res (Dict (PyVal F)) :=
  mapRes (fun (kv : String × PyVal F) =>
    if kv.1 = "X" then do
      let x ← kv.2.slice start stop
      .ok ("X", x)
    else if kv.1 = "V" then .ok ("V", vNew)
    else if kv.1 = "IVOL" then .ok ("IVOL", .int ivol)
    else if kv.1 = "NVOL" then .ok ("NVOL", .int nvol)
    else .ok kv) indict

/-- `s.split(",")` -/
def splitComma (s : Str) : List Str := splitP (· == ',') s

/-- Successive pairs: the loops on lines 165-167 and 181-183 of `common_utils.py`. `items[1]` on a
one-element list raises `IndexError`. -/
def pairUp : List Str → Res (List (Str × Str))
  | [] => .ok []
  | [_] => .error .index
  | a :: b :: t => do
    let rest ← pairUp t
    .ok ((a, b) :: rest)

/-- `makeListFromCommaSepString(s)`, `common_utils.py` lines 171-184. -/
def makeListFromCommaSepString (s : Str) : Res (List (Str × Str)) :=
  if s.count ',' % 2 = 0 then .error .exn else pairUp (splitComma s)

/-- Insertion into a `dict` keyed by `Str`. -/
def sdictSet (d : List (Str × Str)) (k v : Str) : List (Str × Str) :=
  match d with
  | [] => [(k, v)]
  | (k', v') :: t => if k' = k then (k', v) :: t else (k', v') :: sdictSet t k v

/-- Lookup in a `dict` keyed by `Str`. -/
def sdictGet? (d : List (Str × Str)) (k : Str) : Option Str :=
  match d with
  | [] => none
  | (k', v') :: t => if k' = k then some v' else sdictGet? t k

/-- `makeDictFromCommaSepString(s)`, `common_utils.py` lines 155-168. -/
def makeDictFromCommaSepString (s : Str) : Res (List (Str × Str)) := do
  let pairs ← makeListFromCommaSepString s
  .ok (pairs.foldl (fun d kv => sdictSet d kv.1 kv.2) [])

/-- What a write call fixes: number formats, delimiter, annotation table (`none` when
`annotation=False`). Delimiter and annotations are taken to hold no `%`, since nappy pastes them into
format strings. -/
structure Env (F : Type) where
  cd : Codec F
  delim : Str
  ann : Option (String → Str)

/-- `getAnnotation(item, annotation, delimiter, count)`, `common_utils.py` lines 187-203. -/
def getAnnotation {F : Type} (env : Env F) (item : String) (count : Option Nat) : Str :=
  match env.ann with
  | none => []
  | some t =>
    t item ++ (match count with | none => [] | some k => ' ' :: natStr k) ++ env.delim

/-- `annotateLine` (`wrapLine`), `common_utils.py` lines 222-231. -/
def wrapLine {F : Type} (env : Env F) (item : String) (line : Str) (count : Option Nat) : Str :=
  match env.ann with
  | none => line
  | some _ => getAnnotation env item count ++ line

/-- The loop of `annotateLines`, `common_utils.py` lines 214-217. -/
def wrapLinesGo {F : Type} (env : Env F) (item : String) : Nat → List Str → Str
  | _, [] => []
  | count, l :: ls => wrapLine env item l (some count) ++ wrapLinesGo env item (count + 1) ls

/-- `annotateLines` (`wrapLines`), `common_utils.py` lines 206-219. -/
def wrapLines {F : Type} (env : Env F) (item : String) (lines : Str) : Str :=
  wrapLinesGo env item 1 (splitlinesKeep lines)

/-- A quote character, `common_utils.py` lines 237-238. -/
def isQuote (c : Char) : Bool := c == '\'' || c == '"'

/-- `stripQuotes(s)` on a string, `common_utils.py` lines 234-239. `s[0]` and `s[-1]` raise `IndexError`
on an empty string. -/
def stripQuotes (s : Str) : Res Str :=
  match s with
  | [] => .error .index
  | c :: r =>
    let s1 := if isQuote c then r else s
    match s1.getLast? with
    | none => .error .index
    | some e => .ok (if isQuote e then s1.dropLast else s1)

/-- `s.lower().replace(" ", "_")`, `safe_name`, `common_utils.py` lines 242-246. Lower-casing is that of
Lean's `Char.toLower` (ASCII letters). -/
def safeName (s : Str) : Str := s.map (fun c => if c.toLower = ' ' then '_' else c.toLower)

/-- `fuzzy_contains(item, seq)`, `common_utils.py` lines 249-255. -/
def fuzzyContains (item : Str) (seq : List Str) : Bool := (seq.map safeName).contains (safeName item)

end Nappy
