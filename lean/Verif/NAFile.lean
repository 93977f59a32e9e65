import Verif.CommonUtils
import Verif.ListManip

/-!
Model of `nappy/na_file/na_file.py`: the header sections shared by all formats, the header length, the
blank-line check, the read loop, and the order in which a write touches the file.

A header field that Python would hold as an attribute is a structure field here. `None` for the
auxiliary lists when `NAUXV <= 0` is represented by empty lists; the code never looks at them then.
-/

namespace Nappy

/-- Fields of the common header, `na_file.py` lines 184-213. -/
structure Common where
  NLHEAD : Int
  FFI : Int
  ONAME : Str
  ORG : Str
  SNAME : Str
  MNAME : Str
  IVOL : Int
  NVOL : Int
  DATE : List Int
  RDATE : List Int
  deriving DecidableEq

/-- Fields of the variables section, `na_file.py` lines 215-233. -/
structure VarHdr (F : Type) where
  NV : Int
  VSCAL : List F
  VMISS : List F
  VNAME : List Str
  deriving DecidableEq

/-- Fields of the auxiliary variables section, `na_file.py` lines 235-258. -/
structure AuxHdr (F : Type) where
  NAUXV : Int
  ASCAL : List F
  AMISS : List F
  ANAME : List Str
  deriving DecidableEq

/-- Fields of the comments section, `na_file.py` lines 277-295. -/
structure ComHdr where
  NSCOML : Int
  SCOM : List Str
  NNCOML : Int
  NCOM : List Str
  deriving DecidableEq

/-! ### Reading the header. The state is the list of lines not yet read. -/

/-- `_readLines(nlines)`, `na_file.py` lines 156-161: stripped lines, `""` past the end of the file. -/
def readLinesN : Nat → List Str → List Str × List Str
  | 0, ls => ([], ls)
  | n + 1, ls =>
    let (l, ls1) := readline ls
    let (rest, ls2) := readLinesN n ls1
    (strip l :: rest, ls2)

/-- The ignored lines, `na_file.py` lines 188-189. -/
def readIgnored : Nat → List Str → List Str × List Str
  | 0, ls => ([], ls)
  | n + 1, ls =>
    let (l, ls1) := readline ls
    let (rest, ls2) := readIgnored n ls1
    (readItem l :: rest, ls2)

/-- `NIV = int(FFI / 1000)`, `na_file.py` line 153 -/
def nivOf (ffi : Int) : Int := ffi.tdiv 1000

/-- `_readCommonHeader`, `na_file.py` lines 184-199 and 144-154. Returns the header, the ignored lines
and the lines left. -/
def readCommon (ignoreLines : Nat) (ls : List Str) : Res (Common × List Str × List Str) := do
  let (ignored, ls) := readIgnored ignoreLines ls
  let (l, ls) := readline ls
  match ← readItemsFromLine l 2 pyInt with
  | [nlhead, ffi] =>
    let (l1, ls) := readline ls
    let (l2, ls) := readline ls
    let (l3, ls) := readline ls
    let (l4, ls) := readline ls
    let (l5, ls) := readline ls
    match ← readItemsFromLine l5 2 pyInt with
    | [ivol, nvol] =>
      let (l6, ls) := readline ls
      let dates ← readItemsFromLine l6 6 pyInt
      .ok ({ NLHEAD := nlhead + ignoreLines, FFI := ffi, ONAME := readItem l1, ORG := readItem l2,
             SNAME := readItem l3, MNAME := readItem l4, IVOL := ivol, NVOL := nvol,
             DATE := dates.take 3, RDATE := dates.drop 3 }, ignored, ls)
    | _ => .error .value
  | _ => .error .value

/-- `readItemFromLine(self.file.readline(), int)` -/
def readIntLine (ls : List Str) : Res (Int × List Str) := do
  let (l, ls) := readline ls
  let i ← readItemInt l
  .ok (i, ls)

/-- `_readVariablesHeaderSection`, `na_file.py` lines 215-223. -/
def readVars {F : Type} (cd : Codec F) (ls : List Str) : Res (VarHdr F × List Str) := do
  let (nv, ls) ← readIntLine ls
  let (vscal, ls) ← readUnkFile nv cd.float ls
  let (vmiss, ls) ← readUnkFile nv cd.float ls
  let (names, ls) := readLinesN nv.toNat ls
  .ok ({ NV := nv, VSCAL := vscal, VMISS := vmiss, VNAME := readItemsFromLines names }, ls)

/-- `_readAuxVariablesHeaderSection`, `na_file.py` lines 235-244. -/
def readAux {F : Type} (cd : Codec F) (ls : List Str) : Res (AuxHdr F × List Str) := do
  let (nauxv, ls) ← readIntLine ls
  if nauxv > 0 then
    let (ascal, ls) ← readUnkFile nauxv cd.float ls
    let (amiss, ls) ← readUnkFile nauxv cd.float ls
    let (names, ls) := readLinesN nauxv.toNat ls
    .ok ({ NAUXV := nauxv, ASCAL := ascal, AMISS := amiss, ANAME := readItemsFromLines names }, ls)
  else .ok ({ NAUXV := nauxv, ASCAL := [], AMISS := [], ANAME := [] }, ls)

/-- `_readComments`, `na_file.py` lines 277-285, 310-326. -/
def readComments (ls : List Str) : Res (ComHdr × List Str) := do
  let (nscoml, ls) ← readIntLine ls
  let (scom, ls) := readLinesN nscoml.toNat ls
  let (nncoml, ls) ← readIntLine ls
  let (ncom, ls) := readLinesN nncoml.toNat ls
  .ok ({ NSCOML := nscoml, SCOM := scom, NNCOML := nncoml, NCOM := ncom }, ls)

/-! ### Writing the header -/

/-- `(("%s" + delimiter) * (n - 1) + "%s\n") % tuple(items)`: the number of `%s` must match, a repeat count
below zero gives no repetition. -/
def tmplSep (n : Int) (delim : Str) (items : List Str) : Res Str :=
  if items.length = (n - 1).toNat + 1 then .ok (join delim items ++ ['\n']) else .error .type

/-- `"%s\n" * n % tuple(items)` -/
def tmplLines (n : Int) (items : List Str) : Res Str :=
  if items.length = n.toNat then .ok (unlines items) else .error .type

/-- `("%s" + sep) * n + "\n"` applied to `tuple(items)`, with `sep` empty or one blank. -/
def tmplRow (n : Int) (sep : Str) (items : List Str) : Res Str :=
  if items.length = n.toNat then .ok ((items.map (fun i => i ++ sep)).flatten ++ ['\n'])
  else .error .type

/-- `"%d%s%d\n" % (a, delimiter, b)` -/
def twoInts {F : Type} (env : Env F) (a b : Int) : Str := intStr a ++ env.delim ++ intStr b ++ ['\n']

/-- `_writeCommonHeader`, `na_file.py` lines 201-213. -/
def writeCommon {F : Type} (env : Env F) (c : Common) : Res Str := do
  let oname ← stripQuotes c.ONAME
  let org ← stripQuotes c.ORG
  let sname ← stripQuotes c.SNAME
  let mname ← stripQuotes c.MNAME
  match c.DATE, c.RDATE with
  | d0 :: d1 :: d2 :: _, r0 :: r1 :: r2 :: _ =>
    .ok (wrapLine env "NLHEAD_FFI" (twoInts env c.NLHEAD c.FFI) none
      ++ (getAnnotation env "ONAME" none ++ oname ++ ['\n'])
      ++ (getAnnotation env "ORG" none ++ org ++ ['\n'])
      ++ (getAnnotation env "SNAME" none ++ sname ++ ['\n'])
      ++ (getAnnotation env "MNAME" none ++ mname ++ ['\n'])
      ++ wrapLine env "IVOL_NVOL" (twoInts env c.IVOL c.NVOL) none
      ++ wrapLine env "DATE_RDATE"
          (intStr d0 ++ [' '] ++ intStr d1 ++ [' '] ++ intStr d2 ++ env.delim ++
           intStr r0 ++ [' '] ++ intStr r1 ++ [' '] ++ intStr r2 ++ ['\n']) none)
  | _, _ => .error .index

/-- `_writeVariablesHeaderSection`, `na_file.py` lines 225-233. -/
def writeVars {F : Type} (env : Env F) (v : VarHdr F) : Res Str := do
  let vscal ← tmplSep v.NV env.delim (v.VSCAL.map env.cd.sfmt)
  let vmiss ← tmplSep v.NV env.delim (v.VMISS.map env.cd.sfmt)
  let vname ← tmplLines v.NV v.VNAME
  .ok (wrapLine env "NV" (intStr v.NV ++ ['\n']) none ++ wrapLine env "VSCAL" vscal none
    ++ wrapLine env "VMISS" vmiss none ++ wrapLines env "VNAME" vname)

/-- `_writeAuxVariablesHeaderSection`, `na_file.py` lines 246-258. -/
def writeAux {F : Type} (env : Env F) (a : AuxHdr F) : Res Str := do
  let top := wrapLine env "NAUXV" (intStr a.NAUXV ++ ['\n']) none
  if a.NAUXV > 0 then
    let ascal ← tmplSep a.NAUXV env.delim (a.ASCAL.map env.cd.sfmt)
    let amiss ← tmplSep a.NAUXV env.delim (a.AMISS.map env.cd.sfmt)
    let aname ← tmplLines a.NAUXV a.ANAME
    .ok (top ++ wrapLine env "ASCAL" ascal none ++ wrapLine env "AMISS" amiss none
      ++ wrapLines env "ANAME" aname)
  else .ok top

/-- `_writeComments`, `na_file.py` lines 287-295. -/
def writeComments {F : Type} (env : Env F) (c : ComHdr) : Res Str := do
  let scom ← tmplLines c.NSCOML c.SCOM
  let ncom ← tmplLines c.NNCOML c.NCOM
  .ok (wrapLine env "NSCOML" (intStr c.NSCOML ++ ['\n']) none ++ wrapLines env "SCOM" scom
    ++ wrapLine env "NNCOML" (intStr c.NNCOML ++ ['\n']) none ++ wrapLines env "NCOM" ncom)

/-- `_fixHeaderLength`, `na_file.py` lines 297-308: count the lines of the header buffer and rewrite the
first one. `lines[0]` raises on an empty buffer. -/
def fixHeaderLength {F : Type} (env : Env F) (ffi : Int) (header : Str) : Res Str :=
  match readlines header with
  | [] => .error .index
  | _ :: rest =>
    .ok (concat (wrapLine env "NLHEAD_FFI" (twoInts env ((rest.length : Int) + 1) ffi) none :: rest))

/-! ### Writing: the sequence of `file.write` calls -/

/-- The effect of a write: the arguments of the `file.write` calls done, in order, and the exception that
ended it, if any. -/
structure Out where
  writes : List Str
  err : Option Err
  deriving DecidableEq

/-- Run `a`, then `b` unless `a` raised. -/
def Out.seq (a b : Out) : Out :=
  match a.err with
  | some _ => a
  | none => { writes := a.writes ++ b.writes, err := b.err }

/-- A loop that computes and writes one line after another, stopping at the first exception. -/
def Out.ofRows : List (Res Str) → Out
  | [] => { writes := [], err := none }
  | .ok s :: t => { writes := s :: (Out.ofRows t).writes, err := (Out.ofRows t).err }
  | .error e :: _ => { writes := [], err := some e }

/-- A computation that ends in one `file.write`, as `writeHeader` does. -/
def Out.one (r : Res Str) : Out :=
  match r with
  | .ok s => { writes := [s], err := none }
  | .error e => { writes := [], err := some e }

/-- Text of the file after the write, starting from an empty file. -/
def Out.text (o : Out) : Str := concat o.writes

/-- `self.format % x` with `format = float_format + delimiter`, `na_file.py` line 104. -/
def cell {F : Type} (env : Env F) (x : F) : Str := env.cd.ffmt x ++ env.delim

/-- `wrapLine("Data", ..., "%s\n" % var_string.rstrip(" ,"))`, the last step of every data row. -/
def dataLine {F : Type} (env : Env F) (varString : Str) : Str :=
  wrapLine env "Data" (rstripSC varString ++ ['\n']) none

/-- `var_string + (self.format % col[m])` over the columns, e.g. `na_file_1001.py` lines 93-94. -/
def cells {F : Type} (env : Env F) (cols : List (List F)) (m : Nat) : Res Str := do
  let cs ← mapRes (fun (col : List F) => do
    let x ← idx col m
    .ok (cell env x)) cols
  .ok (concat cs)

/-- `cols[0:n]` taken by `for n in range(N): ... cols[n]`: raises `IndexError` when there are fewer. -/
def firstN {α : Type} (l : List α) (n : Int) : Res (List α) :=
  mapRes (idx l) (List.range n.toNat)

/-! ### Reading the data -/

/-- `_checkForBlankLines`, `na_file.py` lines 163-181. -/
def checkBlank : Bool → List Str → Res (List Str)
  | _, [] => .ok []
  | empties, l :: ls =>
    if strip l = [] then checkBlank true ls
    else if empties then .error .exn
    else do
      let rest ← checkBlank empties ls
      .ok (l :: rest)

/-- The loop of `readData`, `na_file.py` lines 344-348. `step` is `_readData1` followed by `_readData2`. The
first argument bounds the number of passes; running out of it stands for a loop that does not end. -/
def readLoop {σ : Type} (step : σ → List Str → Res (σ × List Str)) : Nat → σ → List Str → Res σ
  | _, st, [] => .ok st
  | 0, _, _ :: _ => .error .hang
  | k + 1, st, l :: ls => do
    let (st', ls') ← step st (l :: ls)
    readLoop step k st' ls'

/-- `readData` after `_setupArrays`, `na_file.py` lines 338-348. -/
def readDataWith {σ : Type} (step : σ → List Str → Res (σ × List Str)) (st0 : σ) (text : Str)
    (nlhead : Int) : Res σ := do
  let lines ← checkBlank false (sliceFrom (fileLines text) nlhead)
  readLoop step lines.length st0 lines

/-- `for n in range(N): cols[n].append(v[n])`, e.g. `na_file_1001.py` lines 71-75. `cols` has one list per
variable. -/
def appendCols {α : Type} : List (List α) → List α → Res (List (List α))
  | [], _ => .ok []
  | _ :: _, [] => .error .index
  | c :: cs, v :: vs => do
    let rest ← appendCols cs vs
    .ok ((c ++ [v]) :: rest)

/-- `[[] for n in range(N)]`: the loops in `_setupArrays`. -/
def emptyCols {α : Type} (n : Int) : List (List α) := List.replicate n.toNat []

end Nappy
