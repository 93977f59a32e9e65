import Verif.Spec.Text
import Verif.FFI2

/-!
Specification vocabulary for NASA Ames dictionaries: what a well-formed dictionary is, for each format.
All conditions are on the values the user supplies.
-/

namespace Nappy.Spec

variable {F : Type}

/-- No white space at either end. -/
def Trim (s : Str) : Prop :=
  (∀ c ∈ s.head?, isSpace c = false) ∧ (∀ c ∈ s.getLast?, isSpace c = false)

instance (s : Str) : Decidable (Trim s) := by unfold Trim; infer_instance

/-- One line of text without white space at either end. -/
def OneLine (s : Str) : Prop := (∀ c ∈ s, c ≠ '\n' ∧ c ≠ '\r') ∧ Trim s

instance (s : Str) : Decidable (OneLine s) := by unfold OneLine; infer_instance

/-- A name that the reader returns as it is: one line, not ending in a brace annotation, without the
control character U+0001 (on which the quote pattern of the reader works). -/
def Name (s : Str) : Prop :=
  OneLine s ∧ '\x01' ∉ s ∧ (s.getLast? = some '}' → '{' ∉ s)

instance (s : Str) : Decidable (Name s) := by unfold Name; infer_instance

/-- A name that the writer of the first header lines writes as it is: not empty and without a quote at
either end. -/
def HdrName (s : Str) : Prop :=
  Name s ∧ s ≠ [] ∧ (∀ c ∈ s.head?, c ≠ '"' ∧ c ≠ '\'') ∧ (∀ c ∈ s.getLast?, c ≠ '"' ∧ c ≠ '\'')

instance (s : Str) : Decidable (HdrName s) := by unfold HdrName; infer_instance

/-- A delimiter made of white space within a line. -/
def WsDelim (d : Str) : Prop := d ≠ [] ∧ ∀ c ∈ d, isSpace c = true ∧ c ≠ '\n' ∧ c ≠ '\r'

instance (s : Str) : Decidable (WsDelim s) := by unfold WsDelim; infer_instance

/-- Well-formed common header. -/
structure WfCommon (c : Common) : Prop where
  oname : HdrName c.ONAME
  org : HdrName c.ORG
  sname : HdrName c.SNAME
  mname : HdrName c.MNAME
  date : c.DATE.length = 3
  rdate : c.RDATE.length = 3

/-- Well-formed variables section. -/
structure WfVars (v : VarHdr F) : Prop where
  pos : 1 ≤ v.NV
  vscal : (v.VSCAL.length : Int) = v.NV
  vmiss : (v.VMISS.length : Int) = v.NV
  vname : (v.VNAME.length : Int) = v.NV
  names : ∀ s ∈ v.VNAME, Name s

/-- Well-formed auxiliary variables section. Without auxiliary variables there are no lists. -/
structure WfAux (a : AuxHdr F) : Prop where
  nonneg : 0 ≤ a.NAUXV
  ascal : (a.ASCAL.length : Int) = a.NAUXV
  amiss : (a.AMISS.length : Int) = a.NAUXV
  aname : (a.ANAME.length : Int) = a.NAUXV
  names : ∀ s ∈ a.ANAME, Name s

/-- Well-formed comments: each comment is one line; it may be empty and may have white space at its ends. -/
structure WfCom (c : ComHdr) : Prop where
  nscoml : (c.SCOM.length : Int) = c.NSCOML
  nncoml : (c.NCOM.length : Int) = c.NNCOML
  scom : ∀ s ∈ c.SCOM, ∀ ch ∈ s, ch ≠ '\n' ∧ ch ≠ '\r'
  ncom : ∀ s ∈ c.NCOM, ∀ ch ∈ s, ch ≠ '\n' ∧ ch ≠ '\r'

/-- The comments without white space at the ends of the lines. -/
def trimCom (c : ComHdr) : ComHdr := { c with SCOM := c.SCOM.map strip, NCOM := c.NCOM.map strip }

/-- `n` columns of `m` values each. -/
def Rect {α : Type} (cols : List (List α)) (n : Int) (m : Nat) : Prop :=
  (cols.length : Int) = n ∧ ∀ col ∈ cols, col.length = m

/-- Well-formed 1001 dictionary. -/
structure Wf1001 (r : NA1001 F) : Prop where
  common : WfCommon r.c
  ffi : r.c.FFI = 1001
  niv : r.NIV = 1
  dx : r.DX.length = 1
  xname : r.XNAME.length = 1
  xnames : ∀ s ∈ r.XNAME, Name s
  vars : WfVars r.v
  com : WfCom r.com
  data : Rect r.V r.v.NV r.X.length

/-- Well-formed 1010 dictionary. -/
structure Wf1010 (r : NA1010 F) : Prop where
  common : WfCommon r.c
  ffi : r.c.FFI = 1010
  niv : r.NIV = 1
  dx : r.DX.length = 1
  xname : r.XNAME.length = 1
  xnames : ∀ s ∈ r.XNAME, Name s
  vars : WfVars r.v
  aux : WfAux r.aux
  com : WfCom r.com
  aux_data : Rect r.A r.aux.NAUXV r.X.length
  data : Rect r.V r.v.NV r.X.length

/-- Well-formed 1020 dictionary: `NVPM` values of each variable per mark. -/
structure Wf1020 (r : NA1020 F) : Prop where
  common : WfCommon r.c
  ffi : r.c.FFI = 1020
  niv : r.NIV = 1
  dx : r.DX.length = 1
  nvpm : 1 ≤ r.NVPM
  xname : r.XNAME.length = 1
  xnames : ∀ s ∈ r.XNAME, Name s
  vars : WfVars r.v
  aux : WfAux r.aux
  com : WfCom r.com
  aux_data : Rect r.A r.aux.NAUXV r.X.length
  data : Rect r.V r.v.NV (r.X.length * r.NVPM.toNat)

/-! ### nested lists -/

mutual
/-- The numbers of a nested list, from left to right (row-major order). -/
def leaves : Tree F → List F
  | .val x => [x]
  | .lst l => leavesList l
/-- The numbers of a list of nested lists. -/
def leavesList : List (Tree F) → List F
  | [] => []
  | t :: ts => leaves t ++ leavesList ts
end

mutual
/-- Apply a function to every number. -/
def mapTree (q : F → F) : Tree F → Tree F
  | .val x => .val (q x)
  | .lst l => .lst (mapTrees q l)
/-- Apply a function to every number of a list of nested lists. -/
def mapTrees (q : F → F) : List (Tree F) → List (Tree F)
  | [] => []
  | t :: ts => mapTree q t :: mapTrees q ts
end

/-- A nested list with the given dimensions. -/
def Shaped : List Nat → Tree F → Prop
  | [], .val _ => True
  | [], .lst _ => False
  | _ :: _, .val _ => False
  | d :: ds, .lst l => l.length = d ∧ ∀ t ∈ l, Shaped ds t

/-! ### two or more independent variables -/

/-- Well-formed 2010, 3010 or 4010 dictionary. `XB` are the bounded axes: each holds the values that are
written out, `NXDEF` of them. -/
structure Wf2010 (r : NA2010 F) : Prop where
  common : WfCommon r.c
  ffi : (r.c.FFI = 2010 ∧ r.NIV = 2) ∨ (r.c.FFI = 3010 ∧ r.NIV = 3) ∨ (r.c.FFI = 4010 ∧ r.NIV = 4)
  dx : (r.DX.length : Int) = r.NIV
  nx : (r.NX.length : Int) = r.NIV - 1
  nx_pos : ∀ n ∈ r.NX, 1 ≤ n
  nxdef_pos : ∀ n ∈ r.NXDEF, 1 ≤ n
  nxdef : (r.NXDEF.length : Int) = r.NIV - 1
  axes : r.XB.map (fun x => (x.length : Int)) = r.NXDEF
  xname : (r.XNAME.length : Int) = r.NIV
  xnames : ∀ s ∈ r.XNAME, Name s
  vars : WfVars r.v
  aux : WfAux r.aux
  com : WfCom r.com
  aux_data : Rect r.A r.aux.NAUXV r.X0.length
  data : Rect r.V r.v.NV r.X0.length
  shape : ∀ col ∈ r.V, ∀ t ∈ col, Shaped (r.NX.map Int.toNat) t

/-- `V[n][m]` has `NX[m]` values. -/
def Ragged (V : List (List (List F))) (nv : Int) (NX : List Int) : Prop :=
  (V.length : Int) = nv ∧ ∀ vn ∈ V, vn.map (fun l => (l.length : Int)) = NX

/-- Well-formed 2110 dictionary: each mark has its own number of bounded values, also held by the first
auxiliary variable. `count a = some n` says that the value `a` is read back as the count `n`. -/
structure Wf2110 (count : F → Option Int) (r : NA2110 F) : Prop where
  common : WfCommon r.c
  ffi : r.c.FFI = 2110
  niv : r.NIV = 2
  dx : r.DX.length = 2
  xname : r.XNAME.length = 2
  xnames : ∀ s ∈ r.XNAME, Name s
  vars : WfVars r.v
  aux : WfAux r.aux
  com : WfCom r.com
  marks : r.X.map (fun x => (x.2.length : Int)) = r.NX
  aux_data : Rect r.A r.aux.NAUXV r.X.length
  counts : (r.A.head?).map (fun a => a.map count) = some (r.NX.map some)
  data : Ragged r.V r.v.NV r.NX

/-- Well-formed 2310 dictionary: the values of the bounded variable are implied by the first three
auxiliary variables - their number, the first one and the increment. `DX` holds the increment of the
unbounded variable and then the increment of each mark. `incr` is what becomes of the increment when it
is read. -/
structure Wf2310 (count : F → Option Int) (incr : F → Option F) (r : NA2110 F) : Prop where
  common : WfCommon r.c
  ffi : r.c.FFI = 2310
  niv : r.NIV = 2
  xname : r.XNAME.length = 2
  xnames : ∀ s ∈ r.XNAME, Name s
  vars : WfVars r.v
  aux : WfAux r.aux
  com : WfCom r.com
  nx_pos : ∀ n ∈ r.NX, 1 ≤ n
  aux_data : Rect r.A r.aux.NAUXV r.X.length
  aux3 : ∃ a0 a1 a2 as, r.A = a0 :: a1 :: a2 :: as ∧ a0.map count = r.NX.map some ∧
    r.X.map (fun x => x.2) = a1.map (fun a => [a]) ∧
    ∃ d0 ds, r.DX = d0 :: ds ∧ a2.map incr = ds.map some
  data : Ragged r.V r.v.NV r.NX

/-- One word that is read as it is: not empty, no white space, no comma at the end, not ending in a brace
annotation. -/
def PlainWord (s : Str) : Prop :=
  Word s ∧ s.getLast? ≠ some ',' ∧ (s.getLast? = some '}' → '{' ∉ s)

instance (s : Str) : Decidable (PlainWord s) := by unfold PlainWord; infer_instance

/-- A text value that can be read back from a data line: a non-empty name not ending in a comma. -/
def TextVal (s : Str) : Prop := Name s ∧ s ≠ [] ∧ s.getLast? ≠ some ','

instance (s : Str) : Decidable (TextVal s) := by unfold TextVal; infer_instance

/-- Well-formed auxiliary variables section of 2160: numeric variables first, at least one of each
kind. -/
structure WfCharAux (a : CharAuxHdr F) : Prop where
  nums : ∃ (k : Nat) (ms : List F) (ss : List Str) (ls : List Int),
    1 ≤ k ∧ ss ≠ [] ∧ a.NAUXC = ss.length ∧ a.NAUXV = k + ss.length ∧
    a.ASCAL.length = k ∧ ms.length = k ∧ ls.length = ss.length ∧
    a.AMISS = ms.map .num ++ ss.map .str ∧ (∀ s ∈ ss, PlainWord s) ∧
    a.LENA = List.replicate k none ++ ls.map some
  aname : (a.ANAME.length : Int) = a.NAUXV
  names : ∀ s ∈ a.ANAME, Name s

/-- Well-formed 2160 dictionary. The auxiliary data are the numeric columns `N` and the text columns
`T`. -/
structure Wf2160 (count : F → Option Int) (r : NA2160 F) (N : List (List F)) (T : List (List Str)) :
    Prop where
  common : WfCommon r.c
  ffi : r.c.FFI = 2160
  niv : r.NIV = 2
  dx : r.DX.length = 1
  xname : r.XNAME.length = 2
  xnames : ∀ s ∈ r.XNAME, Name s
  vars : WfVars r.v
  aux : WfCharAux r.aux
  com : WfCom r.com
  ignored : ∀ s ∈ r.ignored, Name s
  marks : r.X.map (fun x => (x.2.length : Int)) = r.NX
  words : ∀ x ∈ r.X, PlainWord x.1
  aux_data : r.A = N.map (fun col => col.map .num) ++ T.map (fun col => col.map .str)
  num_data : Rect N (r.aux.NAUXV - r.aux.NAUXC) r.X.length
  text_data : Rect T r.aux.NAUXC r.X.length
  texts : ∀ col ∈ T, ∀ s ∈ col, TextVal s
  counts : (N.head?).map (fun a => a.map count) = some (r.NX.map some)
  data : Ragged r.V r.v.NV r.NX

end Nappy.Spec
