import Verif.Core
import Verif.CommonUtils

/-!
Model of writing a file from a NASA Ames dictionary: `openNAFile(filename, "w", na_dict)` (`nappy_api.py` lines
158-167), `_parseDictionary` and `write` (`na_file.py` lines 94-142).

The writers work on typed objects here (`Obj`). A dictionary in which an item that the writer of its format uses is
missing or of another type than the readers produce is outside the model (`Err.outside`); Python would use it as far as
it goes.
-/

namespace Nappy

variable {F : Type}

/-! ### Items of a dictionary with their types -/

def PyVal.int? : PyVal F → Option Int
  | .int i => some i
  | _ => Option.none

def PyVal.num? : PyVal F → Option F
  | .num x => some x
  | _ => Option.none

def PyVal.str? : PyVal F → Option Str
  | .str s => some s
  | _ => Option.none

def PyVal.list? {α : Type} (f : PyVal F → Option α) : PyVal F → Option (List α)
  | .list l => l.mapM f
  | _ => Option.none

def PyVal.cell? : PyVal F → Option (Cell F)
  | .num x => some (.num x)
  | .str s => some (.str s)
  | _ => Option.none

/-- A member of `LENA`: a whole number or `None`. -/
def PyVal.lena? : PyVal F → Option (Option Int)
  | .int i => some (some i)
  | .none => some Option.none
  | _ => Option.none

/-- A nested list of numbers. -/
def PyVal.tree? : PyVal F → Option (Tree F)
  | .num x => some (.val x)
  | .list l => (go l).map .lst
  | _ => Option.none
where
  go : List (PyVal F) → Option (List (Tree F))
    | [] => some []
    | v :: vs => do
      let t ← PyVal.tree? v
      let ts ← go vs
      some (t :: ts)

/-- A member of `X` in 2110, 2160 and 2310: a pair of a mark and a list of numbers. -/
def PyVal.pair? {α : Type} (f : PyVal F → Option α) : PyVal F → Option (α × List F)
  | .list [a, b] => do
    let x ← f a
    let l ← b.list? PyVal.num?
    some (x, l)
  | _ => Option.none

/-- An item with its type. -/
def itemAs {α : Type} (d : Dict (PyVal F)) (k : String) (f : PyVal F → Option α) : Option α := (dictGet? d k).bind f

/-! ### The sections of the header -/

/-- The items used by `_writeCommonHeader`, `na_file.py` lines 201-213. -/
def commonOf (d : Dict (PyVal F)) : Option Common := do
  let nlhead ← itemAs d "NLHEAD" PyVal.int?
  let ffi ← itemAs d "FFI" PyVal.int?
  let oname ← itemAs d "ONAME" PyVal.str?
  let org ← itemAs d "ORG" PyVal.str?
  let sname ← itemAs d "SNAME" PyVal.str?
  let mname ← itemAs d "MNAME" PyVal.str?
  let ivol ← itemAs d "IVOL" PyVal.int?
  let nvol ← itemAs d "NVOL" PyVal.int?
  let date ← itemAs d "DATE" (PyVal.list? PyVal.int?)
  let rdate ← itemAs d "RDATE" (PyVal.list? PyVal.int?)
  some { NLHEAD := nlhead, FFI := ffi, ONAME := oname, ORG := org, SNAME := sname, MNAME := mname, IVOL := ivol,
         NVOL := nvol, DATE := date, RDATE := rdate }

/-- The items used by `_writeVariablesHeaderSection`, `na_file.py` lines 225-233. -/
def varsOf (d : Dict (PyVal F)) : Option (VarHdr F) := do
  let nv ← itemAs d "NV" PyVal.int?
  let vscal ← itemAs d "VSCAL" (PyVal.list? PyVal.num?)
  let vmiss ← itemAs d "VMISS" (PyVal.list? PyVal.num?)
  let vname ← itemAs d "VNAME" (PyVal.list? PyVal.str?)
  some { NV := nv, VSCAL := vscal, VMISS := vmiss, VNAME := vname }

/-- The items used by `_writeAuxVariablesHeaderSection`, `na_file.py` lines 246-258. -/
def auxOf (d : Dict (PyVal F)) : Option (AuxHdr F) := do
  let nauxv ← itemAs d "NAUXV" PyVal.int?
  if nauxv > 0 then do
    let ascal ← itemAs d "ASCAL" (PyVal.list? PyVal.num?)
    let amiss ← itemAs d "AMISS" (PyVal.list? PyVal.num?)
    let aname ← itemAs d "ANAME" (PyVal.list? PyVal.str?)
    some { NAUXV := nauxv, ASCAL := ascal, AMISS := amiss, ANAME := aname }
  else some { NAUXV := nauxv, ASCAL := [], AMISS := [], ANAME := [] }

/-- The items used by `_writeAuxVariablesHeaderSection` of 2160, `na_file_2160.py` lines 65-82. -/
def charAuxOf (d : Dict (PyVal F)) : Option (CharAuxHdr F) := do
  let nauxv ← itemAs d "NAUXV" PyVal.int?
  let nauxc ← itemAs d "NAUXC" PyVal.int?
  if nauxv > 0 then do
    let ascal ← itemAs d "ASCAL" (PyVal.list? PyVal.num?)
    let amiss ← itemAs d "AMISS" (PyVal.list? PyVal.cell?)
    let lena ← itemAs d "LENA" (PyVal.list? PyVal.lena?)
    let aname ← itemAs d "ANAME" (PyVal.list? PyVal.str?)
    some { NAUXV := nauxv, NAUXC := nauxc, ASCAL := ascal, AMISS := amiss, LENA := lena, ANAME := aname }
  else some { NAUXV := nauxv, NAUXC := nauxc, ASCAL := [], AMISS := [], LENA := [], ANAME := [] }

/-- The items used by `_writeComments`, `na_file.py` lines 287-295. -/
def comOf (d : Dict (PyVal F)) : Option ComHdr := do
  let nscoml ← itemAs d "NSCOML" PyVal.int?
  let scom ← itemAs d "SCOM" (PyVal.list? PyVal.str?)
  let nncoml ← itemAs d "NNCOML" PyVal.int?
  let ncom ← itemAs d "NCOM" (PyVal.list? PyVal.str?)
  some { NSCOML := nscoml, SCOM := scom, NNCOML := nncoml, NCOM := ncom }

/-! ### The objects -/

/-- The object that `na_file_1001.py` writes. -/
def of1001 (d : Dict (PyVal F)) : Option (NA1001 F) := do
  let c ← commonOf d
  let niv ← itemAs d "NIV" PyVal.int?
  let dx ← itemAs d "DX" (PyVal.list? PyVal.num?)
  let xname ← itemAs d "XNAME" (PyVal.list? PyVal.str?)
  let v ← varsOf d
  let com ← comOf d
  let x ← itemAs d "X" (PyVal.list? PyVal.num?)
  let cols ← itemAs d "V" (PyVal.list? (PyVal.list? PyVal.num?))
  some { c := c, NIV := niv, DX := dx, XNAME := xname, v := v, com := com, X := x, V := cols }

/-- The object that `na_file_1010.py` writes. -/
def of1010 (d : Dict (PyVal F)) : Option (NA1010 F) := do
  let c ← commonOf d
  let niv ← itemAs d "NIV" PyVal.int?
  let dx ← itemAs d "DX" (PyVal.list? PyVal.num?)
  let xname ← itemAs d "XNAME" (PyVal.list? PyVal.str?)
  let v ← varsOf d
  let aux ← auxOf d
  let com ← comOf d
  let x ← itemAs d "X" (PyVal.list? PyVal.num?)
  let a ← itemAs d "A" (PyVal.list? (PyVal.list? PyVal.num?))
  let cols ← itemAs d "V" (PyVal.list? (PyVal.list? PyVal.num?))
  some { c := c, NIV := niv, DX := dx, XNAME := xname, v := v, aux := aux, com := com, X := x, A := a, V := cols }

/-- The object that `na_file_1020.py` writes. -/
def of1020 (d : Dict (PyVal F)) : Option (NA1020 F) := do
  let c ← commonOf d
  let niv ← itemAs d "NIV" PyVal.int?
  let dx ← itemAs d "DX" (PyVal.list? PyVal.num?)
  let nvpm ← itemAs d "NVPM" PyVal.int?
  let xname ← itemAs d "XNAME" (PyVal.list? PyVal.str?)
  let v ← varsOf d
  let aux ← auxOf d
  let com ← comOf d
  let x ← itemAs d "X" (PyVal.list? PyVal.num?)
  let a ← itemAs d "A" (PyVal.list? (PyVal.list? PyVal.num?))
  let cols ← itemAs d "V" (PyVal.list? (PyVal.list? PyVal.num?))
  some { c := c, NIV := niv, DX := dx, NVPM := nvpm, XNAME := xname, v := v, aux := aux, com := com, X := x, A := a,
         V := cols }

/-- The object that `na_file_2010.py` writes. -/
def of2010 (d : Dict (PyVal F)) : Option (NA2010 F) := do
  let c ← commonOf d
  let niv ← itemAs d "NIV" PyVal.int?
  let dx ← itemAs d "DX" (PyVal.list? PyVal.num?)
  let nx ← itemAs d "NX" (PyVal.list? PyVal.int?)
  let nxdef ← itemAs d "NXDEF" (PyVal.list? PyVal.int?)
  let xs ← itemAs d "X" (PyVal.list? (PyVal.list? PyVal.num?))
  let xname ← itemAs d "XNAME" (PyVal.list? PyVal.str?)
  let v ← varsOf d
  let aux ← auxOf d
  let com ← comOf d
  let a ← itemAs d "A" (PyVal.list? (PyVal.list? PyVal.num?))
  let cols ← itemAs d "V" (PyVal.list? (PyVal.list? PyVal.tree?))
  match xs with
  | [] => none
  | x0 :: xb =>
    some { c := c, NIV := niv, DX := dx, NX := nx, NXDEF := nxdef, X0 := x0, XB := xb, XNAME := xname, v := v,
           aux := aux, com := com, A := a, V := cols }

/-- The object that `na_file_2110.py` and `na_file_2310.py` write. -/
def of2110 (d : Dict (PyVal F)) : Option (NA2110 F) := do
  let c ← commonOf d
  let niv ← itemAs d "NIV" PyVal.int?
  let dx ← itemAs d "DX" (PyVal.list? PyVal.num?)
  let xname ← itemAs d "XNAME" (PyVal.list? PyVal.str?)
  let v ← varsOf d
  let aux ← auxOf d
  let com ← comOf d
  let nx ← itemAs d "NX" (PyVal.list? PyVal.int?)
  let x ← itemAs d "X" (PyVal.list? (PyVal.pair? PyVal.num?))
  let a ← itemAs d "A" (PyVal.list? (PyVal.list? PyVal.num?))
  let cols ← itemAs d "V" (PyVal.list? (PyVal.list? (PyVal.list? PyVal.num?)))
  some { c := c, NIV := niv, DX := dx, XNAME := xname, v := v, aux := aux, com := com, NX := nx, X := x, A := a,
         V := cols }

/-- The object that `na_file_2160.py` writes. `ignored_header_lines` is an empty list if the dictionary does not have
it (`na_file.py` line 66). -/
def of2160 (d : Dict (PyVal F)) : Option (NA2160 F) := do
  let c ← commonOf d
  let niv ← itemAs d "NIV" PyVal.int?
  let dx ← itemAs d "DX" (PyVal.list? PyVal.num?)
  let lenx ← itemAs d "LENX" PyVal.num?
  let xname ← itemAs d "XNAME" (PyVal.list? PyVal.str?)
  let v ← varsOf d
  let aux ← charAuxOf d
  let com ← comOf d
  let ignored ← (match dictGet? d "ignored_header_lines" with
    | none => some []
    | some l => l.list? PyVal.str?)
  let nx ← itemAs d "NX" (PyVal.list? PyVal.int?)
  let x ← itemAs d "X" (PyVal.list? (PyVal.pair? PyVal.str?))
  let a ← itemAs d "A" (PyVal.list? (PyVal.list? PyVal.cell?))
  let cols ← itemAs d "V" (PyVal.list? (PyVal.list? (PyVal.list? PyVal.num?)))
  some { c := c, NIV := niv, DX := dx, LENX := lenx, XNAME := xname, v := v, aux := aux, com := com,
         ignored := ignored, NX := nx, X := x, A := a, V := cols }

/-- `_parseDictionary`, `na_file.py` lines 135-142, for the class of format `ffi`: the items of the dictionary become
attributes. -/
def objOfDict (ffi : Int) (d : Dict (PyVal F)) : Option (Obj F) :=
  if ffi = 1001 then (of1001 d).map .o1001
  else if ffi = 1010 then (of1010 d).map .o1010
  else if ffi = 1020 then (of1020 d).map .o1020
  else if ffi = 2110 then (of2110 d).map .o2110
  else if ffi = 2160 then (of2160 d).map .o2160
  else if ffi = 2310 then (of2110 d).map .o2310
  else (of2010 d).map .o2010

/-! ### Opening and writing -/

/-- `openNAFile(filename, "w", na_dict)`, `nappy_api.py` lines 158-167: the class and the dictionary of the caller. A
format that is missing or not a whole number is chosen, and is put into the dictionary. -/
def openDict (d : Dict (PyVal F)) : Res (Dict (PyVal F) × Int) := do
  let (d, ffi) ← (match dictGet? d "FFI" with
    | some (.int ffi) => .ok (d, ffi)
    | _ => do
      let ffi ← chooseFFI d
      .ok (dictSet d "FFI" (.int ffi), ffi))
  let cls ← getNAFileClass ffi
  .ok (d, cls)

/-- The dictionary after a write: the lists that the writer has reversed in place are those of the dictionary. -/
def afterWrite (d : Dict (PyVal F)) (o : Obj F) : Dict (PyVal F) :=
  ((o.attrs []).filter (fun kv => kv.1 ∈ ["XNAME", "DX", "NX"])).foldl (fun d kv => dictSet d kv.1 kv.2) d

/-- Opening a file for a dictionary and writing it: the dictionary of the caller afterwards, and what is done to the
file. -/
def writeDict (env : Env F) (noHeader : Bool) (d : Dict (PyVal F)) : Res (Dict (PyVal F) × Out) := do
  let (d, cls) ← openDict d
  match objOfDict cls d with
  | none => .error .outside
  | some o => .ok (afterWrite d (o.write env noHeader).1, (o.write env noHeader).2)

end Nappy
