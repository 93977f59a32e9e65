import Verif.Api

/-!
Model of `nappy/nc_interface/xarray_objs_to_na_files.py`: the class `XarrayObjectsToNAFile`, with the methods it has from
`XarrayToNA`. Logging is left out. Calls after `writeNAFiles` are not modelled.
-/

namespace Nappy

variable {F : Type}

/-- An object of the class, `xarray_objs_to_na_files.py` lines 37-57. `dicts` is the attribute `na_dict_list`, which
the class does not set at the start; it is there exactly if `converted` is true. -/
structure ObjsToNA (F : Type) where
  vars : List (XVar F)
  globals : Dict (PyVal F)
  items : Dict (PyVal F)
  requested : Option Int
  dicts : Option (List (Dict (PyVal F)))

/-- `XarrayObjectsToNAFile(...)`, `xarray_objs_to_na_files.py` lines 37-57. -/
def ObjsToNA.new (vars : List (XVar F)) (globals items : Dict (PyVal F)) (requested : Option Int) : ObjsToNA F :=
  { vars := vars, globals := globals, items := items, requested := requested, dicts := none }

/-- `convert`, `xarray_to_na.py` lines 72-130: the object afterwards and what is returned. -/
def ObjsToNA.convert (env : ApiEnv F) (s : ObjsToNA F) : Res (ObjsToNA F × Option (List (Dict (PyVal F)))) :=
  match s.dicts with
  | some ds => .ok (s, some ds)
  | none => do
    let r ← convertDicts env.collect env.showTree s.requested s.globals s.vars.length s.vars
    match r with
    | none => .ok (s, none)
    | some ds => .ok ({ s with dicts := some ds }, some ds)

/-- `constructNAFileNames`, `xarray_to_na.py` lines 198-227. The object has no `nc_file`, and no `na_dict_list` if
nothing was found. -/
def ObjsToNA.names (env : ApiEnv F) (s : ObjsToNA F) (naFile : Option Str) : Res (List Str) := do
  let (s, _) ← s.convert env
  match s.dicts with
  | none => .error .attribute
  | some ds => constructNAFileNames none ds.length naFile

/-- `writeNAFiles`, `xarray_to_na.py` lines 229-365: the files written and `output_files_written`. -/
def ObjsToNA.write (emit : WriteCall F → Res Unit) (env : ApiEnv F) (s : ObjsToNA F) (naFile : Option Str)
    (opts : WriteOpts) : Run F :=
  match s.convert env with
  | .error x => { calls := [], result := .error x }
  | .ok (s, _) =>
    match s.dicts with
    | none => { calls := [], result := .error .attribute }
    | some ds =>
      match writeNAFiles emit env.cfg s.items opts none naFile ds with
      | (r, none) => { calls := r.written, result := .ok r.fileList }
      | (r, some x) => { calls := r.written, result := .error x }

end Nappy
