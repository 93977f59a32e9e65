import Verif.Open

/-!
Model of `nappy/na_file/na_core.py`: the attribute table of a file object, the dictionary made from it, and
the metadata accessors.

`NACore` is generic here: a file object has the attributes named in `na_dictionary_keys` and others, which
only matter for `__getitem__`. `Obj.attrs` gives the attributes an object of one of the file classes has.
-/

namespace Nappy

variable {F : Type}

/-- `na_dictionary_keys`, `na_core.py` lines 27-32. -/
def naKeys : List String :=
  ["A", "AMISS", "ANAME", "ASCAL", "DATE", "DX", "FFI", "IVOL", "LENA", "LENX", "MNAME", "NAUXC",
   "NAUXV", "NCOM", "NIV", "NLHEAD", "NNCOML", "NSCOML", "NV", "NVOL", "NVPM", "NX", "NXDEF", "ONAME",
   "ORG", "RDATE", "SCOM", "SNAME", "V", "VMISS", "VNAME", "VSCAL", "X", "XNAME",
   "ignored_header_lines"]

/-- The state of a file object that `na_core.py` uses: attributes (absent ones are not in the list) and
`na_dict`. -/
structure NACore (F : Type) where
  attrs : Dict (PyVal F)
  naDict : Dict (PyVal F)

/-- `value is not None` -/
def PyVal.isNone : PyVal F → Bool
  | .none => true
  | _ => false

/-- `getattr(self, key)` for one of the keys `__init__` (lines 41-42) has set to `None`. -/
def NACore.attr (c : NACore F) (key : String) : PyVal F :=
  match dictGet? c.attrs key with
  | some v => v
  | Option.none => .none

/-- `NACore.__init__`, lines 41-42: every key becomes an attribute with the value `None`. -/
def NACore.init : NACore F := { attrs := naKeys.map (fun k => (k, .none)), naDict := [] }

/-- `setattr(self, key, value)` -/
def NACore.setattr (c : NACore F) (key : String) (v : PyVal F) : NACore F :=
  { c with attrs := dictSet c.attrs key v }

/-- `__getitem__`, lines 47-59. -/
def NACore.getitem (c : NACore F) (item : String) : PyVal F :=
  match dictGet? c.attrs item with
  | some v => v
  | Option.none => .str ("Item '".toList ++ item.toList ++ "' not found.".toList)

/-- The dictionary built by `getNADict`, lines 100-108. -/
def NACore.collect (c : NACore F) : Dict (PyVal F) :=
  naKeys.filterMap fun k => if (c.attr k).isNone then Option.none else some (k, c.attr k)

/-- `getNADict()`, lines 96-110: the object as it is left and the dictionary returned. -/
def NACore.getNADict (c : NACore F) : NACore F × Dict (PyVal F) :=
  ({ c with naDict := c.collect }, c.collect)

/-- `setNADict(na_dict)`, lines 113-117. Values here have no identity, so the deep copy is the value. -/
def NACore.setNADict (c : NACore F) (d : Dict (PyVal F)) : NACore F := { c with naDict := d }

/-- `_parseDictionary`, `na_file.py` lines 135-142: every item of `na_dict` becomes an attribute. -/
def NACore.parseDictionary (c : NACore F) : NACore F :=
  c.naDict.foldl (fun c kv => c.setattr kv.1 kv.2) c

/-! ### The pattern for names and units -/

/-- Position, from the left, of the first `)` that has at least one character in front of it: what `(.+?)\)`
matches. Gives the units and the rest after the bracket. -/
def unitsFrom : Str → Option (Str × Str)
  | [] => none
  | c :: cs =>
    match cs.dropWhile (· != ')') with
    | [] => none
    | _ :: rest => some (c :: cs.takeWhile (· != ')'), rest)

/-- `(.*)\((.+?)\)(.*)` on a text without line feed. The first group is greedy, so the last bracket that can
open the units is taken. Gives the three groups. -/
def splitUnits : Str → Option (Str × Str × Str)
  | [] => none
  | c :: cs =>
    match splitUnits cs with
    | some (v1, u, v2) => some (c :: v1, u, v2)
    | none =>
      if c = '(' then
        match unitsFrom cs with
        | some (u, v2) => some ([], u, v2)
        | none => none
      else none

/-- `var_and_units_pattern.match(item)` with the default pattern `^\s*(.*)\((.+?)\)(.*)\s*$`, `na_core.py`
line 44. `.` matches no line feed: after the leading white space everything that matters is on the first
line, and only white space may follow that line. -/
def unitsMatch (item : Str) : Option (Str × Str × Str) :=
  let s := lstrip item
  let line := s.takeWhile (· != '\n')
  let rest := s.dropWhile (· != '\n')
  if rest.all isSpace then splitUnits line else none

/-- `_attemptVarAndUnitsMatch(item)`, `na_core.py` lines 62-78, with the default pattern. `callback` is
`var_and_units_callback` if one was given. -/
def varAndUnits (callback : Option (Str → Str × Option Str)) (item : Str) : Str × Option Str :=
  match callback with
  | some f => (strip (f item).1, (f item).2)
  | none =>
    match unitsMatch item with
    | some (v1, u, v2) => (strip (v1 ++ [' '] ++ v2), some u)
    | none => (strip item, none)

/-! ### The attributes of the file classes -/

/-- A list of numbers as a Python value. -/
def pyNums (l : List F) : PyVal F := .list (l.map .num)

/-- A list of integers as a Python value. -/
def pyInts (l : List Int) : PyVal F := .list (l.map .int)

/-- A list of strings as a Python value. -/
def pyStrs (l : List Str) : PyVal F := .list (l.map .str)

/-- A list of lists of numbers. -/
def pyCols (l : List (List F)) : PyVal F := .list (l.map pyNums)

/-- A nested list. -/
def pyTree : Tree F → PyVal F
  | .val x => .num x
  | .lst l => .list (go l)
where
  go : List (Tree F) → List (PyVal F)
    | [] => []
    | t :: ts => pyTree t :: go ts

/-- A number or a string. -/
def pyCell : Cell F → PyVal F
  | .num x => .num x
  | .str s => .str s

/-- Attributes set by `_readCommonHeader` and `_readTopLine`, `na_file.py` lines 144-154 and 184-199. -/
def commonAttrs (c : Common) (niv : Int) : Dict (PyVal F) :=
  [("NLHEAD", .int c.NLHEAD), ("FFI", .int c.FFI), ("NIV", .int niv), ("ONAME", .str c.ONAME),
   ("ORG", .str c.ORG), ("SNAME", .str c.SNAME), ("MNAME", .str c.MNAME), ("IVOL", .int c.IVOL),
   ("NVOL", .int c.NVOL), ("DATE", pyInts c.DATE), ("RDATE", pyInts c.RDATE)]

/-- Attributes set by `_readVariablesHeaderSection`, `na_file.py` lines 215-223. -/
def varAttrs (v : VarHdr F) : Dict (PyVal F) :=
  [("NV", .int v.NV), ("VSCAL", pyNums v.VSCAL), ("VMISS", pyNums v.VMISS), ("VNAME", pyStrs v.VNAME)]

/-- Attributes set by `_readAuxVariablesHeaderSection`, `na_file.py` lines 235-244. -/
def auxAttrs (a : AuxHdr F) : Dict (PyVal F) :=
  ("NAUXV", .int a.NAUXV) ::
    (if a.NAUXV > 0 then
      [("ASCAL", pyNums a.ASCAL), ("AMISS", pyNums a.AMISS), ("ANAME", pyStrs a.ANAME)] else [])

/-- Attributes set by `_readComments`, `na_file.py` lines 277-285. -/
def comAttrs (c : ComHdr) : Dict (PyVal F) :=
  [("NSCOML", .int c.NSCOML), ("SCOM", pyStrs c.SCOM), ("NNCOML", .int c.NNCOML), ("NCOM", pyStrs c.NCOM)]

/-- `X` of 2110 and 2310. -/
def pyPairs (l : List (F × List F)) : PyVal F := .list (l.map fun x => .list [.num x.1, pyNums x.2])

/-- Attributes of 2110 and 2310. -/
def attrs2110 (r : NA2110 F) : Dict (PyVal F) :=
  commonAttrs r.c r.NIV ++ [("DX", pyNums r.DX), ("XNAME", pyStrs r.XNAME)] ++ varAttrs r.v
    ++ auxAttrs r.aux ++ comAttrs r.com
    ++ [("NX", pyInts r.NX), ("X", pyPairs r.X), ("A", pyCols r.A), ("V", .list (r.V.map pyCols))]

/-- The attributes an object has after `readHeader` and `readData`: what the assignments to `self` in the
class of the object leave. `ign` is `ignored_header_lines`. -/
def Obj.attrs (ign : List Str) : Obj F → Dict (PyVal F)
  | .o1001 r =>
    commonAttrs r.c r.NIV ++ [("DX", pyNums r.DX), ("XNAME", pyStrs r.XNAME)] ++ varAttrs r.v
      ++ comAttrs r.com ++ [("X", pyNums r.X), ("V", pyCols r.V), ("ignored_header_lines", pyStrs ign)]
  | .o1010 r =>
    commonAttrs r.c r.NIV ++ [("DX", pyNums r.DX), ("XNAME", pyStrs r.XNAME)] ++ varAttrs r.v
      ++ auxAttrs r.aux ++ comAttrs r.com
      ++ [("X", pyNums r.X), ("A", pyCols r.A), ("V", pyCols r.V), ("ignored_header_lines", pyStrs ign)]
  | .o1020 r =>
    commonAttrs r.c r.NIV ++ [("DX", pyNums r.DX), ("NVPM", .int r.NVPM), ("XNAME", pyStrs r.XNAME)]
      ++ varAttrs r.v ++ auxAttrs r.aux ++ comAttrs r.com
      ++ [("X", pyNums r.X), ("A", pyCols r.A), ("V", pyCols r.V), ("ignored_header_lines", pyStrs ign)]
  | .o2010 r =>
    commonAttrs r.c r.NIV ++ [("DX", pyNums r.DX), ("NX", pyInts r.NX), ("NXDEF", pyInts r.NXDEF),
        ("X", pyCols (r.X0 :: r.XB)), ("XNAME", pyStrs r.XNAME)]
      ++ varAttrs r.v ++ auxAttrs r.aux ++ comAttrs r.com
      ++ [("A", pyCols r.A), ("V", .list (r.V.map fun col => .list (col.map pyTree))),
          ("ignored_header_lines", pyStrs ign)]
  | .o2110 r => attrs2110 r ++ [("ignored_header_lines", pyStrs ign)]
  | .o2310 r => attrs2110 r ++ [("ignored_header_lines", pyStrs ign)]
  | .o2160 r =>
    commonAttrs r.c r.NIV ++ [("DX", pyNums r.DX), ("LENX", .num r.LENX), ("XNAME", pyStrs r.XNAME)]
      ++ varAttrs r.v ++ [("NAUXV", .int r.aux.NAUXV), ("NAUXC", .int r.aux.NAUXC)]
      ++ (if r.aux.NAUXV > 0 then
        [("ASCAL", pyNums r.aux.ASCAL), ("AMISS", .list (r.aux.AMISS.map pyCell)),
         ("LENA", .list (r.aux.LENA.map fun o => match o with | none => .none | some i => .int i)),
         ("ANAME", pyStrs r.aux.ANAME)] else [])
      ++ comAttrs r.com
      ++ [("NX", pyInts r.NX), ("X", .list (r.X.map fun x => .list [.str x.1, pyNums x.2])),
          ("A", .list (r.A.map fun col => .list (col.map pyCell))), ("V", .list (r.V.map pyCols)),
          ("ignored_header_lines", pyStrs ign)]

/-- The object in terms of `na_core.py`. -/
def Obj.core (ign : List Str) (o : Obj F) : NACore F :=
  (o.attrs ign).foldl (fun c kv => c.setattr kv.1 kv.2) NACore.init

end Nappy
