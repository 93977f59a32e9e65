import Verif.CollectDict
import Verif.Spec.Dict

/-! Specification vocabulary for the dictionaries made from variables. -/

namespace Nappy.Spec

variable {F : Type}

/-- Adding a difference to the smaller value gives the larger one: no rounding. -/
def ExactSteps (env : XEnv F) (add : F → F → F) : Prop :=
  ∀ x y d, env.eq (env.sub y x) d = true → add x d = y

/-- The dictionary describes the object: it has every attribute that the reader of the format sets, with the
same value. -/
def Describes (d : Dict (PyVal F)) (o : Obj F) : Prop :=
  ∀ kv ∈ o.attrs [], kv.1 ≠ "ignored_header_lines" → dictGet? d kv.1 = some kv.2

/-- The attributes that nappy writes into NetCDF files and that set header items when found again. -/
def headerAttributes : List String :=
  ["source", "title", "institution", "first_valid_date_of_data", "file_format_index",
   "no_of_nasa_ames_header_lines", "total_files_in_set", "file_number_in_set"]

/-- The text `sub` occurs in `s`. -/
def Occurs (sub s : Str) : Prop := ∃ a b, s = a ++ sub ++ b

/-- One value per position of the axes: the array has the shape of the axes. -/
def DataFits (v : XVar F) : Prop := Shaped v.shape v.data

/-- The data as they go into the file: values that are not numbers are replaced by the missing value. -/
def written (env : XEnv F) (v : XVar F) : Tree F :=
  mapTree (fun x => if env.isNaN x then v.miss.getD env.defaultMiss else x) v.data

/-- The members of a nested list. -/
def rows : Tree F → List (Tree F)
  | .val _ => []
  | .lst l => l

/-- The texts of the dictionary can stand in a file: four header names, two dates of three numbers, names and
comments of one line. -/
structure TextsFit (d : Dict (PyVal F)) : Prop where
  head : ∀ k ∈ ["ONAME", "ORG", "SNAME", "MNAME"], ∃ s, dictGet? d k = some (.str s) ∧ HdrName s
  dates : ∀ k ∈ ["DATE", "RDATE"], ∃ l : List Int, dictGet? d k = some (pyInts l) ∧ l.length = 3
  names : ∀ k ∈ ["XNAME", "VNAME", "ANAME"], ∀ l, dictGet? d k = some (pyStrs l) → ∀ s ∈ l, Name s
  comments : ∀ k ∈ ["SCOM", "NCOM"], ∀ l, dictGet? d k = some (pyStrs l) → ∀ s ∈ l, ∀ c ∈ s, c ≠ '\n' ∧ c ≠ '\r'

/-- The two numbers on the first line are the ones chosen: no global attribute replaced them. -/
def TopLineKept (d : Dict (PyVal F)) (ffi : Int) : Prop :=
  dictGet? d "FFI" = some (.int ffi) ∧ ∃ n : Int, dictGet? d "NLHEAD" = some (.int n)

end Nappy.Spec
