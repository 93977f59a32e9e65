import Verif.FFI1

/-!
Model of `nappy/na_file/na_file_2010.py` (used unchanged by 3010 and 4010), `na_file_2110.py`,
`na_file_2160.py` and `na_file_2310.py`.

The header writers of these formats reverse lists in place. The lists are the caller's own (`write`
stores the values of the caller's dictionary on the object, `na_file.py` lines 135-142), so a writer
returns the dictionary as it is left for the caller next to its output.
-/

namespace Nappy

variable {F : Type}

/-! ### FFI 2010, 3010, 4010 -/

/-- Attributes of a 2010/3010/4010 file object. The Python attribute `X` is `[X0] ++ XB`: the unbounded
axis first, then the bounded ones. `V[n][m]` is a nested list. -/
structure NA2010 (F : Type) where
  c : Common
  NIV : Int
  DX : List F
  NX : List Int
  NXDEF : List Int
  X0 : List F
  XB : List (List F)
  XNAME : List Str
  v : VarHdr F
  aux : AuxHdr F
  com : ComHdr
  A : List (List F)
  V : List (List (Tree F))

/-- The loop reading the bounded axes, `na_file_2010.py` lines 43-44. It runs over `self.NXDEF`, which
line 41 has already reversed, while the file has the axes in the order of the NXDEF line. -/
def readAxes (cd : Codec F) : List Int → List Str → Res (List (List F) × List Str)
  | [], ls => .ok ([], ls)
  | n :: ns, ls => do
    let (x, ls) ← readUnkFile n cd.float ls
    let (xs, ls) ← readAxes cd ns ls
    .ok (x :: xs, ls)

/-- `readHeader`, `na_file_2010.py` lines 30-52. -/
def readHeader2010 (cd : Codec F) (ignoreLines : Nat) (ls : List Str) :
    Res (NA2010 F × List Str × List Str) := do
  let (c, ignored, ls) ← readCommon ignoreLines ls
  let niv := nivOf c.FFI
  let (l, ls) := readline ls
  let dx ← readItemsFromLine l niv cd.float
  let (l, ls) := readline ls
  let nx ← readItemsFromLine l (niv - 1) pyInt
  let (l, ls) := readline ls
  let nxdef ← readItemsFromLine l (niv - 1) pyInt
  let (xs, ls) ← readAxes cd nxdef.reverse ls
  let (xn, ls) := readLinesN niv.toNat ls
  let (v, ls) ← readVars cd ls
  let (aux, ls) ← readAux cd ls
  let (com, ls) ← readComments ls
  .ok ({ c := c, NIV := niv, DX := dx.reverse, NX := nx.reverse, NXDEF := nxdef.reverse, X0 := [],
         XB := xs.reverse, XNAME := (readItemsFromLines xn).reverse, v := v, aux := aux, com := com,
         A := [], V := [] }, ignored, ls)

/-- One bounded axis in the header: `(self.format * NXDEF[i] % tuple(X[i + 1][0:NXDEF[i]])).rstrip(" ,") +
"\n"` and the later `lstrip()`, `na_file_2010.py` lines 72 and 76. -/
def axisLine (env : Env F) (nxdef : Int) (x : List F) : Res Str :=
  let vals := sliceTo x nxdef
  if vals.length = nxdef.toNat then
    .ok (lstrip (rstripSC (concat (vals.map (cell env))) ++ ['\n']))
  else .error .type

/-- The loop on lines 69-76 of `na_file_2010.py`, axes in reverse order. -/
def axisLines (env : Env F) (r : NA2010 F) : Res Str := do
  let ls ← mapRes (fun i => do
    let n ← idx r.NXDEF i
    let x ← idx r.XB i
    axisLine env n x) (List.range (r.NIV - 1).toNat)
  .ok (concat (ls.reverse.map (fun l => wrapLine env "X" l none)))

/-- The header text once `DX` and `NX` have been reversed (`r2` is the object at that point),
`na_file_2010.py` lines 64-85. -/
def header2010Tail (env : Env F) (common dx : Str) (r2 : NA2010 F) : Res Str := do
  let nx ← tmplSep (r2.NIV - 1) env.delim (r2.NX.map intStr)
  let nxdef ← tmplSep (r2.NIV - 1) env.delim (r2.NXDEF.reverse.map intStr)
  let xs ← axisLines env r2
  let xname ← tmplLines r2.NIV r2.XNAME.reverse
  let vars ← writeVars env r2.v
  let aux ← writeAux env r2.aux
  let coms ← writeComments env r2.com
  fixHeaderLength env r2.c.FFI
    (common ++ wrapLine env "DX" dx none ++ wrapLine env "NX" nx none
      ++ wrapLine env "NXDEF" nxdef none ++ xs ++ wrapLines env "XNAME" xname ++ vars ++ aux ++ coms)

/-- `writeHeader`, `na_file_2010.py` lines 54-85. `DX = self.DX; DX.reverse()` and
`NX = self.NX; NX.reverse()` change the caller's lists; `NXDEF` and `XNAME` are copied first. -/
def header2010 (env : Env F) (r : NA2010 F) : NA2010 F × Res Str :=
  match writeCommon env r.c with
  | .error e => (r, .error e)
  | .ok common =>
    let r1 := { r with DX := r.DX.reverse }
    match tmplSep r1.NIV env.delim (r1.DX.map env.cd.sfmt) with
    | .error e => (r1, .error e)
    | .ok dx =>
      let r2 := { r1 with NX := r1.NX.reverse }
      (r2, header2010Tail env common dx r2)

/-- Dimensions as natural numbers. `range(d)` with a negative `d` is empty, so a negative dimension acts as
zero. -/
def natDims (nx : List Int) : List Nat := nx.map Int.toNat

/-- The lines of one variable at mark `m`, `na_file_2010.py` lines 148-150. -/
def varLines2010 (env : Env F) (nx : List Int) (V : List (List (Tree F))) (n m : Nat) :
    List (Res Str) :=
  let out : Res (List Str) := do
    let vn ← idx V n
    let t ← idx vn m
    writeLines env.cd env.delim (natDims nx) t
  match out with
  | .error e => [.error e]
  | .ok ls => ls.map (fun l => .ok (wrapLine env "Data" l none))

/-- The loop of `writeData`, `na_file_2010.py` lines 137-150, with `NX` as it is after line 136. -/
def rows2010 (env : Env F) (r : NA2010 F) : List (Res Str) :=
  (r.X0.mapIdx (fun m x =>
    markRow env r.aux.NAUXV r.A x m ::
      ((List.range r.v.NV.toNat).map (fun n => varLines2010 env r.NX r.V n m)).flatten)).flatten

/-- `write` for a 2010, 3010 or 4010 dictionary: the dictionary left for the caller and the effect on
the file. `writeData` reverses `NX` on line 136 whether or not the header was written. -/
def write2010 (env : Env F) (noHeader : Bool) (r : NA2010 F) : NA2010 F × Out :=
  if noHeader then
    let r' := { r with NX := r.NX.reverse }
    (r', Out.ofRows (rows2010 env r'))
  else
    match header2010 env r with
    | (r1, .error e) => (r1, { writes := [], err := some e })
    | (r1, .ok h) =>
      let r' := { r1 with NX := r1.NX.reverse }
      (r', (Out.one (.ok h)).seq (Out.ofRows (rows2010 env r')))

/-- Data arrays of 2010 while reading. -/
structure Arr2010 (F : Type) where
  X0 : List F
  A : List (List F)
  V : List (List (Tree F))

/-- `_readData1`, `na_file_2010.py` lines 104-116. -/
def data1_2010 (cd : Codec F) (nauxv : Int) (st : Arr2010 F) (ls : List Str) :
    Res (Arr2010 F × List Str) := do
  let (xa, rest) ← readUnkList (1 + nauxv) cd.float ls
  match xa with
  | [] => .error .index
  | x :: a =>
    let cols ← appendCols st.A a
    .ok ({ st with X0 := st.X0 ++ [x], A := cols }, rest)

/-- The loop of `_readData2`, `na_file_2010.py` lines 123-127. -/
def popVars (cd : Codec F) (size : Int) (dims : List Nat) :
    List (List (Tree F)) → List Str → Res (List (List (Tree F)) × List Str)
  | [], ls => .ok ([], ls)
  | col :: cols, ls => do
    let (v, rest) ← readUnkList size cd.float ls
    let (t, _) ← populate dims v 0
    let (cols', ls') ← popVars cd size dims cols rest
    .ok ((col ++ [.lst t]) :: cols', ls')

/-- `self.arraySize`, `na_file_2010.py` lines 96-98. -/
def arraySize (nx : List Int) : Int := nx.foldl (fun a i => a * i) 1

/-- `_readData2`, `na_file_2010.py` lines 118-128; without variables `rtlines` is unbound. -/
def data2_2010 (cd : Codec F) (nx : List Int) (st : Arr2010 F) (ls : List Str) :
    Res (Arr2010 F × List Str) :=
  if st.V.isEmpty then .error .unbound
  else do
    let (cols, rest) ← popVars cd (arraySize nx) (natDims nx) st.V ls
    .ok ({ st with V := cols }, rest)

/-- One pass of the read loop for 2010. -/
def step2010 (cd : Codec F) (nauxv : Int) (nx : List Int) (st : Arr2010 F) (ls : List Str) :
    Res (Arr2010 F × List Str) := do
  let (st, ls) ← data1_2010 cd nauxv st ls
  data2_2010 cd nx st ls

/-- `readData` with `_setupArrays` of `na_file_2010.py` lines 88-102. `X[0]` is not reset. -/
def readData2010 (cd : Codec F) (text : Str) (r : NA2010 F) : Res (NA2010 F) := do
  let a ← readDataWith (step2010 cd r.aux.NAUXV r.NX)
    { X0 := r.X0, A := emptyCols r.aux.NAUXV, V := emptyCols r.v.NV } text r.c.NLHEAD
  .ok { r with X0 := a.X0, A := a.A, V := a.V }

/-- Open for reading and read the data. -/
def read2010 (cd : Codec F) (ignoreLines : Nat) (text : Str) : Res (NA2010 F) := do
  let (r, _, _) ← readHeader2010 cd ignoreLines (fileLines text)
  readData2010 cd text r

/-- `while len(X) < NX: X.append(X[count] + DX); count += 1`, `na_file_2010.py` lines 162-166, starting
from the one value left by line 161: `k` more values after the last one `x`. -/
def extendAxis (add : F → F → F) (dx : F) : Nat → F → List F
  | 0, x => [x]
  | k + 1, x => x :: extendAxis add dx k (add x dx)

/-- One axis of `_normalizeIndVars`, `na_file_2010.py` lines 158-166. `add` is `+` on floats. -/
def normalizeAxis (add : F → F → F) (nxdef nx : Int) (dx : F) (x : List F) : Res (List F) :=
  if nxdef = nx then .ok x
  else match x with
    | [] => if nx > 0 then .error .index else .ok []
    | a :: _ => .ok (extendAxis add dx (nx.toNat - 1) a)

/-- `_normalizeIndVars`, `na_file_2010.py` lines 152-167. -/
def normalizeIndVars (add : F → F → F) (r : NA2010 F) : Res (NA2010 F) := do
  let xs ← mapRes (fun i => do
    let n ← idx r.NXDEF i
    let nx ← idx r.NX i
    let x ← idx r.XB i
    if n = nx then .ok x
    else do
      let dx ← idx r.DX (i + 1)
      normalizeAxis add n nx dx x) (List.range (r.NIV - 1).toNat)
  .ok { r with XB := xs ++ r.XB.drop (r.NIV - 1).toNat }

/-! ### FFI 2110 -/

/-- Attributes of a 2110 or 2310 file object. `X[m]` is `[x, [x1, x2, ...]]`, a pair here. -/
structure NA2110 (F : Type) where
  c : Common
  NIV : Int
  DX : List F
  XNAME : List Str
  v : VarHdr F
  aux : AuxHdr F
  com : ComHdr
  NX : List Int
  X : List (F × List F)
  A : List (List F)
  V : List (List (List F))
  deriving DecidableEq

/-- `readHeader`, `na_file_2110.py` lines 28-39. -/
def readHeader2110 (cd : Codec F) (ignoreLines : Nat) (ls : List Str) :
    Res (NA2110 F × List Str × List Str) := do
  let (c, ignored, ls) ← readCommon ignoreLines ls
  let niv := nivOf c.FFI
  let (l, ls) := readline ls
  let dx ← readItemsFromLine l niv cd.float
  let (xn, ls) := readLinesN niv.toNat ls
  let (v, ls) ← readVars cd ls
  let (aux, ls) ← readAux cd ls
  let (com, ls) ← readComments ls
  .ok ({ c := c, NIV := niv, DX := dx.reverse, XNAME := (readItemsFromLines xn).reverse, v := v,
         aux := aux, com := com, NX := [], X := [], A := [], V := [] }, ignored, ls)

/-- Header text of 2110 after `DX`; `r1.XNAME` is the already reversed list,
`na_file_2110.py` lines 51-56. -/
def header2110Tail (env : Env F) (common dx : Str) (r2 : NA2110 F) : Res Str := do
  let xname ← tmplLines r2.NIV r2.XNAME
  let vars ← writeVars env r2.v
  let aux ← writeAux env r2.aux
  let coms ← writeComments env r2.com
  fixHeaderLength env r2.c.FFI
    (common ++ wrapLine env "DX" dx none ++ wrapLines env "XNAME" xname ++ vars ++ aux ++ coms)

/-- `writeHeader`, `na_file_2110.py` lines 41-56. `DX` and `XNAME` are reversed in place and stay so. -/
def header2110 (env : Env F) (r : NA2110 F) : NA2110 F × Res Str :=
  match writeCommon env r.c with
  | .error e => (r, .error e)
  | .ok common =>
    let r1 := { r with DX := r.DX.reverse }
    match tmplSep r1.NIV env.delim (r1.DX.map env.cd.sfmt) with
    | .error e => (r1, .error e)
    | .ok dx =>
      let r2 := { r1 with XNAME := r1.XNAME.reverse }
      (r2, header2110Tail env common dx r2)

/-- The rows of the bounded variable at one mark, `na_file_2110.py` lines 132-138,
`na_file_2160.py` lines 152-158. `xs` is `X[m][1]`. -/
def raggedRow (env : Env F) (nv : Int) (V : List (List (List F))) (xs : List F) (m p : Nat) :
    Res Str := do
  let x2 ← idx xs p
  let vs ← firstN V nv
  let cs ← mapRes (fun (vn : List (List F)) => do
    let vnm ← idx vn m
    let y ← idx vnm p
    .ok (cell env y)) vs
  .ok (dataLine env (cell env x2 ++ concat cs))

/-- The rows of the bounded variable at mark `m`; `NX[m]` is looked up when the loop starts. -/
def raggedRows (env : Env F) (nv : Int) (NX : List Int) (V : List (List (List F))) (xs : List F)
    (m : Nat) : List (Res Str) :=
  match idx NX m with
  | .error e => [.error e]
  | .ok nx => (List.range nx.toNat).map (fun p => raggedRow env nv V xs m p)

/-- `writeData`, `na_file_2110.py` lines 114-138. -/
def rows2110 (env : Env F) (r : NA2110 F) : List (Res Str) :=
  (r.X.mapIdx (fun m x =>
    markRow env r.aux.NAUXV r.A x.1 m :: raggedRows env r.v.NV r.NX r.V x.2 m)).flatten

/-- `write` for a 2110 dictionary. -/
def write2110 (env : Env F) (noHeader : Bool) (r : NA2110 F) : NA2110 F × Out :=
  if noHeader then (r, Out.ofRows (rows2110 env r))
  else
    match header2110 env r with
    | (r1, .error e) => (r1, { writes := [], err := some e })
    | (r1, .ok h) => (r1, (Out.one (.ok h)).seq (Out.ofRows (rows2110 env r1)))

/-- Data arrays of 2110 and 2310 while reading. `DX` only grows for 2310. -/
structure Arr2110 (F : Type) where
  NX : List Int
  X : List (F × List F)
  A : List (List F)
  V : List (List (List F))
  DX : List F
  deriving DecidableEq

/-- The rows of one mark, `na_file_2110.py` lines 101-109: `k` rows of `NV + 1` values. The state is the
list `X[m][1]` and the lists `V[n][m]`. -/
def readRagged (cd : Codec F) (nv : Int) :
    Nat → List F → List (List F) → List Str → Res (List F × List (List F) × List Str)
  | 0, xs, cols, ls => .ok (xs, cols, ls)
  | k + 1, xs, cols, ls => do
    let (xv, ls) ← readUnkList (nv + 1) cd.float ls
    match xv with
    | [] => .error .index
    | x :: v =>
      let cols ← appendCols cols v
      readRagged cd nv k (xs ++ [x]) cols ls

/-- `_readData1`, `na_file_2110.py` lines 73-91. Returns also `int(aux[0])` and the mark value; the entry
of `X` is completed by `_readData2`. -/
def data1_2110 (cd : Codec F) (nauxv : Int) (st : Arr2110 F) (ls : List Str) :
    Res (Arr2110 F × Int × F × List Str) := do
  let (xa, rest) ← readUnkList (nauxv + 1) cd.float ls
  match xa with
  | [] => .error .index
  | x :: a =>
    let cols ← appendCols st.A a
    let a0 ← idx a 0
    let nx ← cd.int a0
    .ok ({ st with A := cols, NX := st.NX ++ [nx] }, nx, x, rest)

/-- `_readData2`, `na_file_2110.py` lines 93-112. -/
def data2_2110 (cd : Codec F) (nv nx : Int) (x : F) (st : Arr2110 F) (ls : List Str) :
    Res (Arr2110 F × List Str) := do
  let (xs, cols, ls) ← readRagged cd nv nx.toNat [] (emptyCols nv) ls
  .ok ({ st with X := st.X ++ [(x, xs)], V := List.zipWith (fun vn c => vn ++ [c]) st.V cols }, ls)

/-- One pass of the read loop for 2110. -/
def step2110 (cd : Codec F) (nauxv nv : Int) (st : Arr2110 F) (ls : List Str) :
    Res (Arr2110 F × List Str) := do
  let (st, nx, x, ls) ← data1_2110 cd nauxv st ls
  data2_2110 cd nv nx x st ls

/-- `readData` with `_setupArrays` of `na_file_2110.py` lines 59-71. -/
def readData2110 (cd : Codec F) (text : Str) (r : NA2110 F) : Res (NA2110 F) := do
  let a ← readDataWith (step2110 cd r.aux.NAUXV r.v.NV)
    { NX := [], X := [], A := emptyCols r.aux.NAUXV, V := emptyCols r.v.NV, DX := r.DX }
    text r.c.NLHEAD
  .ok { r with NX := a.NX, X := a.X, A := a.A, V := a.V, DX := a.DX }

/-- Open for reading and read the data. -/
def read2110 (cd : Codec F) (ignoreLines : Nat) (text : Str) : Res (NA2110 F) := do
  let (r, _, _) ← readHeader2110 cd ignoreLines (fileLines text)
  readData2110 cd text r

/-! ### FFI 2310 -/

/-- `readHeader`, `na_file_2310.py` lines 28-39: one `DX` value only. -/
def readHeader2310 (cd : Codec F) (ignoreLines : Nat) (ls : List Str) :
    Res (NA2110 F × List Str × List Str) := do
  let (c, ignored, ls) ← readCommon ignoreLines ls
  let niv := nivOf c.FFI
  let (l, ls) := readline ls
  let dx ← readItemsFromLine l 1 cd.float
  let (xn, ls) := readLinesN niv.toNat ls
  let (v, ls) ← readVars cd ls
  let (aux, ls) ← readAux cd ls
  let (com, ls) ← readComments ls
  .ok ({ c := c, NIV := niv, DX := dx, XNAME := (readItemsFromLines xn).reverse, v := v,
         aux := aux, com := com, NX := [], X := [], A := [], V := [] }, ignored, ls)

/-- `writeHeader`, `na_file_2310.py` lines 41-54. `XNAME` is reversed in place. -/
def header2310 (env : Env F) (r : NA2110 F) : NA2110 F × Res Str :=
  match writeCommon env r.c with
  | .error e => (r, .error e)
  | .ok common =>
    match idx r.DX 0 with
    | .error e => (r, .error e)
    | .ok dx0 =>
      let r2 := { r with XNAME := r.XNAME.reverse }
      (r2, header2110Tail env common (env.cd.sfmt dx0 ++ ['\n']) r2)

/-- The single row of variables at mark `m`, `na_file_2310.py` lines 111-115: position by position, and
within a position variable by variable. -/
def implRow (env : Env F) (nv : Int) (NX : List Int) (V : List (List (List F))) (m : Nat) :
    Res Str := do
  let nx ← idx NX m
  let cs ← mapRes (fun p => do
    let vs ← firstN V nv
    let ds ← mapRes (fun (vn : List (List F)) => do
      let vnm ← idx vn m
      let y ← idx vnm p
      .ok (cell env y)) vs
    .ok (concat ds)) (List.range nx.toNat)
  .ok (dataLine env (concat cs))

/-- `writeData`, `na_file_2310.py` lines 92-115. -/
def rows2310 (env : Env F) (r : NA2110 F) : List (Res Str) :=
  (r.X.mapIdx (fun m x =>
    [markRow env r.aux.NAUXV r.A x.1 m, implRow env r.v.NV r.NX r.V m])).flatten

/-- `write` for a 2310 dictionary. -/
def write2310 (env : Env F) (noHeader : Bool) (r : NA2110 F) : NA2110 F × Out :=
  if noHeader then (r, Out.ofRows (rows2310 env r))
  else
    match header2310 env r with
    | (r1, .error e) => (r1, { writes := [], err := some e })
    | (r1, .ok h) => (r1, (Out.one (.ok h)).seq (Out.ofRows (rows2310 env r1)))

/-- `_readData1`, `na_file_2310.py` lines 56-76. `int(aux[2])` is appended to `DX`. -/
def data1_2310 (cd : Codec F) (nauxv : Int) (st : Arr2110 F) (ls : List Str) :
    Res (Arr2110 F × Int × List Str) := do
  let (xa, rest) ← readUnkList (nauxv + 1) cd.float ls
  match xa with
  | [] => .error .index
  | x :: a =>
    let cols ← appendCols st.A a
    let a1 ← idx a 1
    let a0 ← idx a 0
    let nx ← cd.int a0
    let a2 ← idx a 2
    let d ← cd.int a2
    .ok ({ st with A := cols, X := st.X ++ [(x, [a1])], NX := st.NX ++ [nx],
                   DX := st.DX ++ [cd.ofInt d] }, nx, rest)

/-- `_readData2`, `na_file_2310.py` lines 78-90: variable by variable. -/
def data2_2310 (cd : Codec F) (nv nx : Int) (st : Arr2110 F) (ls : List Str) :
    Res (Arr2110 F × List Str) := do
  let (v, rest) ← readUnkList (nv * nx) cd.float ls
  let cols ← appendBlocks nx.toNat (emptyCols nv) v
  .ok ({ st with V := List.zipWith (fun vn c => vn ++ [c]) st.V cols }, rest)

/-- One pass of the read loop for 2310. -/
def step2310 (cd : Codec F) (nauxv nv : Int) (st : Arr2110 F) (ls : List Str) :
    Res (Arr2110 F × List Str) := do
  let (st, nx, ls) ← data1_2310 cd nauxv st ls
  data2_2310 cd nv nx st ls

/-- `readData` for 2310; `_setupArrays` is inherited from 2110 and does not reset `DX`. -/
def readData2310 (cd : Codec F) (text : Str) (r : NA2110 F) : Res (NA2110 F) := do
  let a ← readDataWith (step2310 cd r.aux.NAUXV r.v.NV)
    { NX := [], X := [], A := emptyCols r.aux.NAUXV, V := emptyCols r.v.NV, DX := r.DX }
    text r.c.NLHEAD
  .ok { r with NX := a.NX, X := a.X, A := a.A, V := a.V, DX := a.DX }

/-- Open for reading and read the data. -/
def read2310 (cd : Codec F) (ignoreLines : Nat) (text : Str) : Res (NA2110 F) := do
  let (r, _, _) ← readHeader2310 cd ignoreLines (fileLines text)
  readData2310 cd text r

/-! ### FFI 2160 -/

/-- A value that is a number or a string: entries of `A` and `AMISS` in 2160. -/
inductive Cell (F : Type) where
  | num (x : F)
  | str (s : Str)
  deriving DecidableEq

/-- Header of the auxiliary variables of 2160, `na_file.py` lines 260-275. `LENA` starts with one `None`
per numeric auxiliary variable. -/
structure CharAuxHdr (F : Type) where
  NAUXV : Int
  NAUXC : Int
  ASCAL : List F
  AMISS : List (Cell F)
  LENA : List (Option Int)
  ANAME : List Str
  deriving DecidableEq

/-- Attributes of a 2160 file object. -/
structure NA2160 (F : Type) where
  c : Common
  NIV : Int
  DX : List F
  LENX : F
  XNAME : List Str
  v : VarHdr F
  aux : CharAuxHdr F
  com : ComHdr
  ignored : List Str
  NX : List Int
  X : List (Str × List F)
  A : List (List (Cell F))
  V : List (List (List F))
  deriving DecidableEq

/-- `_readCharAuxVariablesHeaderSection`, `na_file.py` lines 260-275. -/
def readCharAux (cd : Codec F) (ls : List Str) : Res (CharAuxHdr F × List Str) := do
  let (nauxv, ls) ← readIntLine ls
  let (nauxc, ls) ← readIntLine ls
  let k := nauxv - nauxc
  if nauxv > 0 then
    let (ascal, ls) ← readUnkFile k cd.float ls
    let (amiss, ls) ← readUnkFile k cd.float ls
    let (lena, ls) ← readUnkFile nauxc pyInt ls
    let (amissc, ls) ← readUnkFile nauxc (fun s => (.ok s : Res Str)) ls
    let (names, ls) := readLinesN nauxv.toNat ls
    .ok ({ NAUXV := nauxv, NAUXC := nauxc, ASCAL := ascal,
           AMISS := amiss.map .num ++ amissc.map .str,
           LENA := List.replicate k.toNat none ++ lena.map some,
           ANAME := readItemsFromLines names }, ls)
  else .ok ({ NAUXV := nauxv, NAUXC := nauxc, ASCAL := [], AMISS := [], LENA := [], ANAME := [] }, ls)

/-- `readHeader`, `na_file_2160.py` lines 28-41. `LENX` is read as a float. -/
def readHeader2160 (cd : Codec F) (ignoreLines : Nat) (ls : List Str) :
    Res (NA2160 F × List Str × List Str) := do
  let (c, ignored, ls) ← readCommon ignoreLines ls
  let niv := nivOf c.FFI
  let (l, ls) := readline ls
  let dx ← readItemsFromLine l 1 cd.float
  let (l, ls) := readline ls
  let lenx ← cd.float (readItem l)
  let (xn, ls) := readLinesN niv.toNat ls
  let (v, ls) ← readVars cd ls
  let (aux, ls) ← readCharAux cd ls
  let (com, ls) ← readComments ls
  .ok ({ c := c, NIV := niv, DX := dx, LENX := lenx, XNAME := (readItemsFromLines xn).reverse,
         v := v, aux := aux, com := com, ignored := ignored, NX := [], X := [], A := [], V := [] },
       ignored, ls)

/-- `"%s" % cell` -/
def cellStr (cd : Codec F) : Cell F → Str
  | .num x => cd.sfmt x
  | .str s => s

/-- `"%s" % entry` for an entry of `LENA` -/
def lenaStr : Option Int → Str
  | none => ['N', 'o', 'n', 'e']
  | some i => intStr i

/-- `_writeAuxVariablesHeaderSection` of `na_file_2160.py` lines 65-82. -/
def writeCharAux (env : Env F) (a : CharAuxHdr F) : Res Str := do
  let k := a.NAUXV - a.NAUXC
  let top := wrapLine env "NAUXV" (intStr a.NAUXV ++ ['\n']) none
    ++ wrapLine env "NAUXC" (intStr a.NAUXC ++ ['\n']) none
  if a.NAUXV > 0 then
    let ascal ← tmplSep k env.delim (a.ASCAL.map env.cd.sfmt)
    let amiss ← tmplSep k env.delim ((sliceTo a.AMISS k).map (cellStr env.cd))
    let lena ← tmplSep a.NAUXC env.delim ((sliceFrom a.LENA k).map lenaStr)
    let amissc ← tmplLines a.NAUXC ((sliceFrom a.AMISS k).map (cellStr env.cd))
    let aname ← tmplLines a.NAUXV a.ANAME
    .ok (top ++ wrapLine env "ASCAL" ascal none ++ wrapLine env "AMISS" amiss none
      ++ wrapLine env "LENA" lena none ++ wrapLines env "AMISS" amissc ++ wrapLines env "ANAME" aname)
  else .ok top

/-- The header text of 2160 once `DX` and `XNAME` have been reversed, `na_file_2160.py` lines 54-63. -/
def header2160Tail (env : Env F) (common dx : Str) (r2 : NA2160 F) : Res Str := do
  let xname ← tmplLines r2.NIV r2.XNAME
  let vars ← writeVars env r2.v
  let aux ← writeCharAux env r2.aux
  let coms ← writeComments env r2.com
  fixHeaderLength env r2.c.FFI
    (common ++ wrapLine env "DX" dx none
      ++ wrapLine env "LENX" (env.cd.sfmt r2.LENX ++ ['\n']) none
      ++ wrapLines env "XNAME" xname ++ vars ++ aux ++ coms)

/-- `writeHeader`, `na_file_2160.py` lines 43-63, without the ignored lines written first. -/
def header2160 (env : Env F) (r : NA2160 F) : NA2160 F × Res Str :=
  match writeCommon env r.c with
  | .error e => (r, .error e)
  | .ok common =>
    let r1 := { r with DX := r.DX.reverse }
    match r1.DX with
    | [x] =>
      let r2 := { r1 with XNAME := r1.XNAME.reverse }
      (r2, header2160Tail env common (env.cd.sfmt x ++ ['\n']) r2)
    | _ => (r1, .error .type)

/-- The two writes of the ignored lines, `na_file_2160.py` lines 47-49. -/
def ignoredWrites (ignored : List Str) : List Str :=
  if ignored.isEmpty then [] else [join ['\n'] ignored, ['\n']]

/-- `self.format % A[a][m]`: a string value raises `TypeError` for a numeric format. -/
def numCell (env : Env F) : Cell F → Res Str
  | .num x => .ok (cell env x)
  | .str _ => .error .type

/-- Row with the numeric auxiliary values, `na_file_2160.py` lines 140-145. -/
def numAuxRow (env : Env F) (k : Int) (A : List (List (Cell F))) (m : Nat) : Res Str := do
  let cs ← mapRes (fun a => do
    let col ← idx A a
    let x ← idx col m
    numCell env x) (List.range k.toNat)
  .ok (dataLine env (concat cs))

/-- `l[i]` for any index: a negative one counts from the end. -/
def idxI {α : Type} (l : List α) (i : Int) : Res α :=
  if 0 ≤ i then idx l i.toNat
  else if 0 ≤ (l.length : Int) + i then idx l ((l.length : Int) + i).toNat
  else .error .index

/-- Row with one character auxiliary value, `na_file_2160.py` lines 147-149. -/
def charAuxRow (env : Env F) (k : Int) (A : List (List (Cell F))) (a m : Nat) : Res Str := do
  let col ← idxI A (k + a)
  let x ← idx col m
  .ok (dataLine env (cellStr env.cd x ++ env.delim))

/-- `writeData`, `na_file_2160.py` lines 129-158. -/
def rows2160 (env : Env F) (r : NA2160 F) : List (Res Str) :=
  let k := r.aux.NAUXV - r.aux.NAUXC
  (r.X.mapIdx (fun m x =>
    .ok (dataLine env x.1) :: numAuxRow env k r.A m ::
      ((List.range r.aux.NAUXC.toNat).map (fun a => charAuxRow env k r.A a m)
        ++ raggedRows env r.v.NV r.NX r.V x.2 m))).flatten

/-- `write` for a 2160 dictionary. -/
def write2160 (env : Env F) (noHeader : Bool) (r : NA2160 F) : NA2160 F × Out :=
  if noHeader then (r, Out.ofRows (rows2160 env r))
  else
    let pre : Out := { writes := ignoredWrites r.ignored, err := none }
    match header2160 env r with
    | (r1, .error e) => (r1, pre.seq { writes := [], err := some e })
    | (r1, .ok h) => (r1, pre.seq ((Out.one (.ok h)).seq (Out.ofRows (rows2160 env r1))))

/-- Data arrays of 2160 while reading. -/
structure Arr2160 (F : Type) where
  NX : List Int
  X : List (Str × List F)
  A : List (List (Cell F))
  V : List (List (List F))
  deriving DecidableEq

/-- `_readData1`, `na_file_2160.py` lines 98-127. Returns also `int(aux[0])` and the mark. -/
def data1_2160 (cd : Codec F) (nauxv nauxc : Int) (st : Arr2160 F) (ls : List Str) :
    Res (Arr2160 F × Int × Str × List Str) := do
  let (x1, ls) ← readUnkList 1 (fun s => (.ok s : Res Str)) ls
  let x ← idx x1 0
  let k := nauxv - nauxc
  let (aux, ls) ← readUnkList k cd.float ls
  let a0 ← idx aux 0
  let nx ← cd.int a0
  let numCols ← appendCols (sliceTo st.A k) (aux.map .num)
  let auxc := readItemsFromLines (sliceTo ls nauxc)
  let charCols ← appendCols (sliceFrom st.A k) (auxc.map .str)
  .ok ({ st with NX := st.NX ++ [nx], A := numCols ++ charCols }, nx, x, sliceFrom ls nauxc)

/-- `_readData2`, inherited from `na_file_2110.py` lines 93-112. -/
def data2_2160 (cd : Codec F) (nv nx : Int) (x : Str) (st : Arr2160 F) (ls : List Str) :
    Res (Arr2160 F × List Str) := do
  let (xs, cols, ls) ← readRagged cd nv nx.toNat [] (emptyCols nv) ls
  .ok ({ st with X := st.X ++ [(x, xs)], V := List.zipWith (fun vn c => vn ++ [c]) st.V cols }, ls)

/-- One pass of the read loop for 2160. -/
def step2160 (cd : Codec F) (nauxv nauxc nv : Int) (st : Arr2160 F) (ls : List Str) :
    Res (Arr2160 F × List Str) := do
  let (st, nx, x, ls) ← data1_2160 cd nauxv nauxc st ls
  data2_2160 cd nv nx x st ls

/-- `readData` with `_setupArrays` of `na_file_2160.py` lines 84-96. -/
def readData2160 (cd : Codec F) (text : Str) (r : NA2160 F) : Res (NA2160 F) := do
  let a ← readDataWith (step2160 cd r.aux.NAUXV r.aux.NAUXC r.v.NV)
    { NX := [], X := [], A := emptyCols r.aux.NAUXV, V := emptyCols r.v.NV } text r.c.NLHEAD
  .ok { r with NX := a.NX, X := a.X, A := a.A, V := a.V }

/-- Open for reading and read the data. -/
def read2160 (cd : Codec F) (ignoreLines : Nat) (text : Str) : Res (NA2160 F) := do
  let (r, _, _) ← readHeader2160 cd ignoreLines (fileLines text)
  readData2160 cd text r

end Nappy
