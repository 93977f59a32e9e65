import Verif.NAFile

/-! Model of `nappy/na_file/na_file_1001.py`, `na_file_1010.py` and `na_file_1020.py`. -/

namespace Nappy

variable {F : Type}

/-! ### FFI 1001 -/

/-- Attributes of a 1001 file object that belong to the NASA Ames dictionary. -/
structure NA1001 (F : Type) where
  c : Common
  NIV : Int
  DX : List F
  XNAME : List Str
  v : VarHdr F
  com : ComHdr
  X : List F
  V : List (List F)
  deriving DecidableEq

/-- `readHeader`, `na_file_1001.py` lines 30-38. Returns the object (data not yet read), the ignored
lines and the lines after the header. -/
def readHeader1001 (cd : Codec F) (ignoreLines : Nat) (ls : List Str) :
    Res (NA1001 F × List Str × List Str) := do
  let (c, ignored, ls) ← readCommon ignoreLines ls
  let (l, ls) := readline ls
  let dx ← readItemsFromLine l (nivOf c.FFI) cd.float
  let (xn, ls) := readLinesN (nivOf c.FFI).toNat ls
  let (v, ls) ← readVars cd ls
  let (com, ls) ← readComments ls
  .ok ({ c := c, NIV := nivOf c.FFI, DX := dx, XNAME := readItemsFromLines xn, v := v, com := com,
         X := [], V := [] }, ignored, ls)

/-- `(annotation + "%s\n") * NIV % tuple(XNAME)`, `na_file_1001.py` lines 47-48. -/
def tmplAnnLines (n : Int) (ann : Str) (items : List Str) : Res Str :=
  if items.length = n.toNat then .ok (unlines (items.map (fun i => ann ++ i))) else .error .type

/-- `writeHeader`, `na_file_1001.py` lines 40-52: the text given to the single `file.write`. -/
def header1001 (env : Env F) (r : NA1001 F) : Res Str := do
  let common ← writeCommon env r.c
  let dx ← tmplRow r.NIV [] (r.DX.map env.cd.sfmt)
  let xname ← tmplAnnLines r.NIV (getAnnotation env "XNAME" none) r.XNAME
  let vars ← writeVars env r.v
  let coms ← writeComments env r.com
  fixHeaderLength env r.c.FFI
    (common ++ (getAnnotation env "DX" none ++ dx) ++ xname ++ vars ++ coms)

/-- One pass of `_readData1` (and the empty `_readData2`), `na_file_1001.py` lines 64-82. The state is
`(X, V)`. -/
def step1001 (cd : Codec F) (nv : Int) (st : List F × List (List F)) (ls : List Str) :
    Res ((List F × List (List F)) × List Str) := do
  let (xv, rest) ← readUnkList (1 + nv) cd.float ls
  match xv with
  | [] => .error .index
  | x :: v =>
    let cols ← appendCols st.2 v
    .ok ((st.1 ++ [x], cols), rest)

/-- `readData`, `na_file.py` lines 328-348 with `_setupArrays` of `na_file_1001.py` lines 54-62. -/
def readData1001 (cd : Codec F) (text : Str) (r : NA1001 F) : Res (NA1001 F) := do
  let (x, v) ← readDataWith (step1001 cd r.v.NV) ([], emptyCols r.v.NV) text r.c.NLHEAD
  .ok { r with X := x, V := v }

/-- Open for reading and read the data. -/
def read1001 (cd : Codec F) (ignoreLines : Nat) (text : Str) : Res (NA1001 F) := do
  let (r, _, _) ← readHeader1001 cd ignoreLines (fileLines text)
  readData1001 cd text r

/-- One row of `writeData`, `na_file_1001.py` lines 91-96. -/
def row1001 (env : Env F) (nv : Int) (V : List (List F)) (x : F) (m : Nat) : Res Str := do
  let vs ← firstN V nv
  let cs ← cells env vs m
  .ok (dataLine env (cell env x ++ cs))

/-- `writeData`, `na_file_1001.py` lines 84-96: the lines written, one `file.write` each. -/
def rows1001 (env : Env F) (r : NA1001 F) : List (Res Str) :=
  r.X.mapIdx (fun m x => row1001 env r.v.NV r.V x m)

/-- `write`, `na_file.py` lines 117-125, for a 1001 dictionary. -/
def write1001 (env : Env F) (noHeader : Bool) (r : NA1001 F) : Out :=
  let body := Out.ofRows (rows1001 env r)
  if noHeader then body else (Out.one (header1001 env r)).seq body

/-! ### FFI 1010 -/

/-- Attributes of a 1010 file object that belong to the NASA Ames dictionary. -/
structure NA1010 (F : Type) where
  c : Common
  NIV : Int
  DX : List F
  XNAME : List Str
  v : VarHdr F
  aux : AuxHdr F
  com : ComHdr
  X : List F
  A : List (List F)
  V : List (List F)
  deriving DecidableEq

/-- `readHeader`, `na_file_1010.py` lines 30-39. -/
def readHeader1010 (cd : Codec F) (ignoreLines : Nat) (ls : List Str) :
    Res (NA1010 F × List Str × List Str) := do
  let (c, ignored, ls) ← readCommon ignoreLines ls
  let (l, ls) := readline ls
  let dx ← readItemsFromLine l (nivOf c.FFI) cd.float
  let (xn, ls) := readLinesN (nivOf c.FFI).toNat ls
  let (v, ls) ← readVars cd ls
  let (aux, ls) ← readAux cd ls
  let (com, ls) ← readComments ls
  .ok ({ c := c, NIV := nivOf c.FFI, DX := dx, XNAME := readItemsFromLines xn, v := v, aux := aux,
         com := com, X := [], A := [], V := [] }, ignored, ls)

/-- `writeHeader`, `na_file_1010.py` lines 41-52. -/
def header1010 (env : Env F) (r : NA1010 F) : Res Str := do
  let common ← writeCommon env r.c
  let dx ← tmplRow r.NIV [' '] (r.DX.map env.cd.sfmt)
  let xname ← tmplLines r.NIV r.XNAME
  let vars ← writeVars env r.v
  let aux ← writeAux env r.aux
  let coms ← writeComments env r.com
  fixHeaderLength env r.c.FFI
    (common ++ wrapLine env "DX" dx none ++ wrapLines env "XNAME" xname ++ vars ++ aux ++ coms)

/-- Data arrays of 1010 and 1020 while reading. -/
structure Arr1010 (F : Type) where
  X : List F
  A : List (List F)
  V : List (List F)
  deriving DecidableEq

/-- `_readData1`, `na_file_1010.py` lines 67-80. -/
def data1_1010 (cd : Codec F) (nauxv : Int) (st : Arr1010 F) (ls : List Str) :
    Res (Arr1010 F × List Str) := do
  let (xa, rest) ← readUnkList (1 + nauxv) cd.float ls
  match xa with
  | [] => .error .index
  | x :: a =>
    let cols ← appendCols st.A a
    .ok ({ st with X := st.X ++ [x], A := cols }, rest)

/-- `_readData2`, `na_file_1010.py` lines 82-94. -/
def data2_1010 (cd : Codec F) (nv : Int) (st : Arr1010 F) (ls : List Str) :
    Res (Arr1010 F × List Str) := do
  let (v, rest) ← readUnkList nv cd.float ls
  let cols ← appendCols st.V v
  .ok ({ st with V := cols }, rest)

/-- One pass of the read loop for 1010. -/
def step1010 (cd : Codec F) (nauxv nv : Int) (st : Arr1010 F) (ls : List Str) :
    Res (Arr1010 F × List Str) := do
  let (st, ls) ← data1_1010 cd nauxv st ls
  data2_1010 cd nv st ls

/-- `readData` with `_setupArrays` of `na_file_1010.py` lines 54-65. -/
def readData1010 (cd : Codec F) (text : Str) (r : NA1010 F) : Res (NA1010 F) := do
  let a ← readDataWith (step1010 cd r.aux.NAUXV r.v.NV)
    { X := [], A := emptyCols r.aux.NAUXV, V := emptyCols r.v.NV } text r.c.NLHEAD
  .ok { r with X := a.X, A := a.A, V := a.V }

/-- Open for reading and read the data. -/
def read1010 (cd : Codec F) (ignoreLines : Nat) (text : Str) : Res (NA1010 F) := do
  let (r, _, _) ← readHeader1010 cd ignoreLines (fileLines text)
  readData1010 cd text r

/-- The row with the mark and the auxiliary values, `na_file_1010.py` lines 103-108,
`na_file_1020.py` lines 93-98, `na_file_2010.py` lines 140-144. -/
def markRow (env : Env F) (nauxv : Int) (A : List (List F)) (x : F) (m : Nat) : Res Str := do
  let as ← firstN A nauxv
  let cs ← cells env as m
  .ok (dataLine env (cell env x ++ cs))

/-- The row with the variables, `na_file_1010.py` lines 111-115. -/
def varRow (env : Env F) (nv : Int) (V : List (List F)) (m : Nat) : Res Str := do
  let vs ← firstN V nv
  let cs ← cells env vs m
  .ok (dataLine env cs)

/-- `writeData`, `na_file_1010.py` lines 96-115. -/
def rows1010 (env : Env F) (r : NA1010 F) : List (Res Str) :=
  (r.X.mapIdx (fun m x =>
    [markRow env r.aux.NAUXV r.A x m, varRow env r.v.NV r.V m])).flatten

/-- `write` for a 1010 dictionary. -/
def write1010 (env : Env F) (noHeader : Bool) (r : NA1010 F) : Out :=
  let body := Out.ofRows (rows1010 env r)
  if noHeader then body else (Out.one (header1010 env r)).seq body

/-! ### FFI 1020 -/

/-- Attributes of a 1020 file object that belong to the NASA Ames dictionary. -/
structure NA1020 (F : Type) where
  c : Common
  NIV : Int
  DX : List F
  NVPM : Int
  XNAME : List Str
  v : VarHdr F
  aux : AuxHdr F
  com : ComHdr
  X : List F
  A : List (List F)
  V : List (List F)
  deriving DecidableEq

/-- `readHeader`, `na_file_1020.py` lines 29-43. The test `self.DX == 0` on line 36 compares a list with 0
and is never true, so it has no counterpart here. -/
def readHeader1020 (cd : Codec F) (ignoreLines : Nat) (ls : List Str) :
    Res (NA1020 F × List Str × List Str) := do
  let (c, ignored, ls) ← readCommon ignoreLines ls
  let (l, ls) := readline ls
  let dx ← readItemsFromLine l (nivOf c.FFI) cd.float
  let (nvpm, ls) ← readIntLine ls
  let (xn, ls) := readLinesN (nivOf c.FFI).toNat ls
  let (v, ls) ← readVars cd ls
  let (aux, ls) ← readAux cd ls
  let (com, ls) ← readComments ls
  .ok ({ c := c, NIV := nivOf c.FFI, DX := dx, NVPM := nvpm, XNAME := readItemsFromLines xn, v := v,
         aux := aux, com := com, X := [], A := [], V := [] }, ignored, ls)

/-- `writeHeader`, `na_file_1020.py` lines 45-57. The axis name is wrapped as one line. -/
def header1020 (env : Env F) (r : NA1020 F) : Res Str := do
  let common ← writeCommon env r.c
  let dx ← tmplRow r.NIV [' '] (r.DX.map env.cd.sfmt)
  let xname ← tmplLines r.NIV r.XNAME
  let vars ← writeVars env r.v
  let aux ← writeAux env r.aux
  let coms ← writeComments env r.com
  fixHeaderLength env r.c.FFI
    (common ++ wrapLine env "DX" dx none ++ wrapLine env "NVPM" (intStr r.NVPM ++ ['\n']) none
      ++ wrapLine env "XNAME" xname none ++ vars ++ aux ++ coms)

/-- `for n in range(NV): for i in range(NVPM): V[n].append(v[count]); count += 1`,
`na_file_1020.py` lines 65-69. -/
def appendBlocks {α : Type} (k : Nat) : List (List α) → List α → Res (List (List α))
  | [], _ => .ok []
  | c :: cs, v =>
    if v.length < k then .error .index
    else do
      let rest ← appendBlocks k cs (v.drop k)
      .ok ((c ++ v.take k) :: rest)

/-- `_readData2`, `na_file_1020.py` lines 59-70. -/
def data2_1020 (cd : Codec F) (nv nvpm : Int) (st : Arr1010 F) (ls : List Str) :
    Res (Arr1010 F × List Str) := do
  let (v, rest) ← readUnkList (nv * nvpm) cd.float ls
  let cols ← appendBlocks nvpm.toNat st.V v
  .ok ({ st with V := cols }, rest)

/-- One pass of the read loop for 1020; `_readData1` is inherited from 1010. -/
def step1020 (cd : Codec F) (nauxv nv nvpm : Int) (st : Arr1010 F) (ls : List Str) :
    Res (Arr1010 F × List Str) := do
  let (st, ls) ← data1_1010 cd nauxv st ls
  data2_1020 cd nv nvpm st ls

/-- `readData` for 1020; `_setupArrays` is inherited from 1010. -/
def readData1020 (cd : Codec F) (text : Str) (r : NA1020 F) : Res (NA1020 F) := do
  let a ← readDataWith (step1020 cd r.aux.NAUXV r.v.NV r.NVPM)
    { X := [], A := emptyCols r.aux.NAUXV, V := emptyCols r.v.NV } text r.c.NLHEAD
  .ok { r with X := a.X, A := a.A, V := a.V }

/-- Open for reading and read the data. -/
def read1020 (cd : Codec F) (ignoreLines : Nat) (text : Str) : Res (NA1020 F) := do
  let (r, _, _) ← readHeader1020 cd ignoreLines (fileLines text)
  readData1020 cd text r

/-- The NVPM values of one variable at mark `m`, `na_file_1020.py` lines 103-110. -/
def blockRow (env : Env F) (nvpm : Int) (V : List (List F)) (n m : Nat) : Res Str := do
  let cs ← mapRes (fun p => do
    let col ← idx V n
    let x ← idx col (m * nvpm.toNat + p)
    .ok (cell env x)) (List.range nvpm.toNat)
  .ok (dataLine env (concat cs))

/-- `writeData`, `na_file_1020.py` lines 86-110. -/
def rows1020 (env : Env F) (r : NA1020 F) : List (Res Str) :=
  (r.X.mapIdx (fun m x =>
    markRow env r.aux.NAUXV r.A x m ::
      (List.range r.v.NV.toNat).map (fun n => blockRow env r.NVPM r.V n m))).flatten

/-- `write` for a 1020 dictionary. -/
def write1020 (env : Env F) (noHeader : Bool) (r : NA1020 F) : Out :=
  let body := Out.ofRows (rows1020 env r)
  if noHeader then body else (Out.one (header1020 env r)).seq body

end Nappy
