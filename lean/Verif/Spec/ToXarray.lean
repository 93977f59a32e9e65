import Verif.NAToXarray
import Verif.Spec.Collect
import Verif.Spec.Accessors

/-! Specification vocabulary for the conversion of NASA Ames files to variables. -/

namespace Nappy.Spec

variable {F : Type}

/-- The headings can be told apart: none is empty or has a line feed, and none of the four that mark comments
contains another one. -/
def HeadingsApart (hp : Headings) : Prop :=
  (∀ h ∈ [hp.sc_start, hp.sc_end, hp.nc_start, hp.nc_end], h ≠ [] ∧ '\n' ∉ h) ∧
    [hp.sc_start, hp.sc_end, hp.nc_start, hp.nc_end].Pairwise (fun h k => ¬ Occurs h k ∧ ¬ Occurs k h)

/-- A comment line: no line feed, and it holds none of the four headings of comments. -/
def PlainComment (hp : Headings) (s : Str) : Prop :=
  '\n' ∉ s ∧ ∀ h ∈ [hp.sc_start, hp.sc_end, hp.nc_start, hp.nc_end], ¬ Occurs h s

/-- The lines of a list that are not empty. -/
def nonEmpty (l : List Str) : List Str := l.filter (fun s => !s.isEmpty)

/-- The attributes that the conversion sets from the header of the file. -/
def attributeNames : List String :=
  ["no_of_nasa_ames_header_lines", "file_format_index", "institution", "source", "title", "file_number_in_set",
   "total_files_in_set", "history", "first_valid_date_of_data", "comment"]

/-- The data of main variable `i` as a nested list, for the formats that can be converted. -/
def mainArray : Obj F → Nat → Option (Tree F)
  | .o1001 r, i => r.V[i]?.map (fun col => .lst (col.map .val))
  | .o1010 r, i => r.V[i]?.map (fun col => .lst (col.map .val))
  | .o2010 r, i => r.V[i]?.map .lst
  | _, _ => none

/-- The data of auxiliary variable `i`. -/
def auxColumn : Obj F → Nat → Option (List F)
  | .o1010 r, i => r.A[i]?
  | .o2010 r, i => r.A[i]?
  | _, _ => none

/-- The name, units, missing value, scale factor and data of a variable of the file are in the variable made from
it. `mul` is the multiplication of numbers. -/
def Carries (mul : F → F → F) (cb : UnitsCallback) (name : Str) (miss scale : F) (data : Tree F) (v : XVar F) : Prop :=
  v.data = mapTree (fun x => mul x scale) data ∧ v.miss = some miss ∧
    dictGet? v.attrs "units" = (varAndUnits cb name).2.filter (fun u => !u.isEmpty)

/-- The special comments of a file other than blank lines and the headings that nappy writes. -/
def ownSpecial (hp : Headings) (com : ComHdr) : List Str :=
  com.SCOM.filter (fun s => decide (strip s ∉ [[], hp.sc_start, hp.sc_end, hp.addl_vatts, hp.addl_globals]))

/-- The normal comments of a file other than blank lines and the headings that nappy writes. -/
def ownNormal (hp : Headings) (com : ComHdr) : List Str :=
  com.NCOM.filter (fun s =>
    decide (strip s ∉ [[], hp.nc_start, hp.nc_end, hp.data_next, hp.addl_vatts, hp.addl_globals]))

/-- The values of the axes of the file, the bounded ones in full. -/
def AxisValues (add : F → F → F) : Obj F → List (List F) → Prop
  | .o1001 r, l => l = [r.X]
  | .o1010 r, l => l = [r.X]
  | .o2010 r, l => ∃ s, normalizeIndVars add r = .ok s ∧ l = s.X0 :: s.XB
  | _, _ => False

/-- Units for a time axis can be found without a refusal: they are given, or nobody is asked, or an answer is
accepted. -/
def UnitsKnown (timeMatch : Str → Bool) (answers : Option (List Str)) (given : Option Str) : Prop :=
  given.isSome ∨ answers = none ∨ ∃ l, answers = some l ∧ ∃ a ∈ l, a = [] ∨ timeMatch a = true

end Nappy.Spec
