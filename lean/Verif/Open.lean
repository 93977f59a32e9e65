import Verif.FFI2

/-!
Model of the choice of a file class and of the operations all classes share: `openNAFile`
(`nappy_api.py` lines 145-169), `readData` and `write` (`na_file.py`), dispatched on the class.
-/

namespace Nappy

variable {F : Type}

/-- An object of one of the file classes. Classes 3010 and 4010 inherit everything from 2010. -/
inductive Obj (F : Type) where
  | o1001 (r : NA1001 F)
  | o1010 (r : NA1010 F)
  | o1020 (r : NA1020 F)
  | o2010 (r : NA2010 F)
  | o2110 (r : NA2110 F)
  | o2160 (r : NA2160 F)
  | o2310 (r : NA2110 F)

/-- The fields of the common header. -/
def Obj.common : Obj F → Common
  | .o1001 r => r.c
  | .o1010 r => r.c
  | .o1020 r => r.c
  | .o2010 r => r.c
  | .o2110 r => r.c
  | .o2160 r => r.c
  | .o2310 r => r.c

/-- `obj.FFI` -/
def Obj.FFI (o : Obj F) : Int := o.common.FFI

/-- The attribute `ignored_header_lines` of the dictionary to be written; only class 2160 writes it. -/
def Obj.ignored : Obj F → List Str
  | .o2160 r => r.ignored
  | _ => []

/-- The format indexes for which the class of the object is used. -/
def Obj.classFFIs : Obj F → List Int
  | .o1001 _ => [1001]
  | .o1010 _ => [1010]
  | .o1020 _ => [1020]
  | .o2010 _ => [2010, 3010, 4010]
  | .o2110 _ => [2110]
  | .o2160 _ => [2160]
  | .o2310 _ => [2310]

/-- `write`, `na_file.py` lines 117-125, of the class of the object: the dictionary as it is left for the
caller and the effect on the file. -/
def Obj.write (env : Env F) (noHeader : Bool) : Obj F → Obj F × Out
  | .o1001 r => (.o1001 r, write1001 env noHeader r)
  | .o1010 r => (.o1010 r, write1010 env noHeader r)
  | .o1020 r => (.o1020 r, write1020 env noHeader r)
  | .o2010 r => (.o2010 (write2010 env noHeader r).1, (write2010 env noHeader r).2)
  | .o2110 r => (.o2110 (write2110 env noHeader r).1, (write2110 env noHeader r).2)
  | .o2160 r => (.o2160 (write2160 env noHeader r).1, (write2160 env noHeader r).2)
  | .o2310 r => (.o2310 (write2310 env noHeader r).1, (write2310 env noHeader r).2)

/-- `readHeader` of the class for format `ffi`, called by `__init__` (`na_file.py` lines 71-73). -/
def readHeaderOf (cd : Codec F) (ffi : Int) (ignoreLines : Nat) (ls : List Str) : Res (Obj F) :=
  if ffi = 1001 then do
    let (r, _, _) ← readHeader1001 cd ignoreLines ls
    .ok (.o1001 r)
  else if ffi = 1010 then do
    let (r, _, _) ← readHeader1010 cd ignoreLines ls
    .ok (.o1010 r)
  else if ffi = 1020 then do
    let (r, _, _) ← readHeader1020 cd ignoreLines ls
    .ok (.o1020 r)
  else if ffi = 2110 then do
    let (r, _, _) ← readHeader2110 cd ignoreLines ls
    .ok (.o2110 r)
  else if ffi = 2160 then do
    let (r, _, _) ← readHeader2160 cd ignoreLines ls
    .ok (.o2160 r)
  else if ffi = 2310 then do
    let (r, _, _) ← readHeader2310 cd ignoreLines ls
    .ok (.o2310 r)
  else do
    let (r, _, _) ← readHeader2010 cd ignoreLines ls
    .ok (.o2010 r)

/-- `openNAFile(filename, "r", ignore_header_lines=...)`, `nappy_api.py` lines 152-156, on the text of the
file. -/
def openNA (cd : Codec F) (ignoreLines : Nat) (text : Str) : Res (Obj F) := do
  let ffi ← readFFI text ignoreLines
  let cls ← getNAFileClass ffi
  readHeaderOf cd cls ignoreLines (fileLines text)

/-- `readData()` of the class of the object. -/
def Obj.readData (cd : Codec F) (text : Str) : Obj F → Res (Obj F)
  | .o1001 r => do
    let r ← readData1001 cd text r
    .ok (.o1001 r)
  | .o1010 r => do
    let r ← readData1010 cd text r
    .ok (.o1010 r)
  | .o1020 r => do
    let r ← readData1020 cd text r
    .ok (.o1020 r)
  | .o2010 r => do
    let r ← readData2010 cd text r
    .ok (.o2010 r)
  | .o2110 r => do
    let r ← readData2110 cd text r
    .ok (.o2110 r)
  | .o2160 r => do
    let r ← readData2160 cd text r
    .ok (.o2160 r)
  | .o2310 r => do
    let r ← readData2310 cd text r
    .ok (.o2310 r)

end Nappy
