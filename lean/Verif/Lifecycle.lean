import Verif.Open

/-!
Model of the life of one file object: `__init__`, `write`, `readData` and `close` of `NAFile`
(`na_file.py` lines 55-133, 328-348).
-/

namespace Nappy

variable {F : Type}

/-- Mode of a file object. Any other mode makes `open` or `__init__` raise, so there is no object. -/
inductive Mode where
  | r
  | w
  deriving DecidableEq, Repr

/-- A file object and its file. `file` is the text written so far, buffered text included. `dict` is the
caller's dictionary. -/
structure Handle (F : Type) where
  mode : Mode
  isOpen : Bool
  dataWritten : Bool
  dict : Obj F
  file : Str

/-- `__init__` with mode "w", `na_file.py` lines 62-76: the file is emptied. -/
def openW (dict : Obj F) : Handle F :=
  { mode := .w, isOpen := true, dataWritten := false, dict := dict, file := [] }

/-- `__init__` with mode "r", `na_file.py` lines 62-73, of a file whose header was read into `dict`. The
attribute `data_written` does not exist then; `write` never looks at it in this mode. -/
def openR (dict : Obj F) (text : Str) : Handle F :=
  { mode := .r, isOpen := true, dataWritten := false, dict := dict, file := text }

/-- `write`, `na_file.py` lines 94-128. The result is `none` when the call returns, else the exception.
`data_written` is set only after everything was written. -/
def Handle.write (env : Env F) (noHeader : Bool) (h : Handle F) : Handle F × Option Err :=
  if h.mode ≠ .w then (h, some .exn)
  else if h.dataWritten then (h, some .exn)
  else if !h.isOpen then (h, some .exn)
  else
    let (d, out) := h.dict.write env noHeader
    ({ h with dict := d, file := h.file ++ out.text,
              dataWritten := if out.err = none then true else h.dataWritten }, out.err)

/-- `close`, `na_file.py` lines 130-133. -/
def Handle.close (h : Handle F) : Handle F := { h with isOpen := false }

/-- A call on the object. `readData` opens the file a second time for reading; what it does to lists of the
caller is left open here: `readData d` stands for a call after which the dictionary is `d`. The object keeps
the dictionary of the caller and not a copy (`na_file.py` line 74), so the caller can edit it: `edit d`. -/
inductive Call (F : Type) where
  | write (env : Env F) (noHeader : Bool)
  | readData (d : Obj F) (err : Option Err)
  | edit (d : Obj F)
  | close

/-- Carry out a call. -/
def Handle.call (h : Handle F) : Call F → Handle F × Option Err
  | .write env noHeader => h.write env noHeader
  | .readData d err => ({ h with dict := d }, err)
  | .edit d => ({ h with dict := d }, none)
  | .close => (h.close, none)

/-- Carry out calls one after another (the caller catches the exceptions) and record each call with its
outcome. -/
def Handle.run (h : Handle F) : List (Call F) → Handle F × List (Call F × Option Err)
  | [] => (h, [])
  | c :: cs =>
    let (h1, e) := h.call c
    let (h2, es) := h1.run cs
    (h2, (c, e) :: es)

end Nappy
