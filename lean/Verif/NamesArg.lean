import Verif.Api

/-! The names of variables as the caller of `convertNCToNA` may give them: a list, or one name. -/

namespace Nappy

/-- An argument for names of variables: `None`, one string, or a list. -/
inductive NamesArg where
  | none
  | one (s : Str)
  | many (l : List Str)

/-- `var_ids` in `_readXarrayFile`, `nc_to_na.py` lines 73-75: one string becomes a list. -/
def NamesArg.ids : NamesArg → Option (List Str)
  | .none => Option.none
  | .one s => some [s]
  | .many l => some l

/-- `exclude_vars`, `nappy_api.py` line 273 and `nc_to_na.py` line 68: nothing and an empty argument are the empty list. What
`fuzzy_contains` goes through, `common_utils.py` line 254, are the items of a list and the letters of a string. -/
def NamesArg.excluded : NamesArg → List Str
  | .none => []
  | .one s => s.map (fun c => [c])
  | .many l => l

end Nappy
