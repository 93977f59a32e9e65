import Verif.XarrayUtils

/-! Model of `nappy/nc_interface/na_content_collector.py` up to the choice of the format, and of `convert` in
`nappy/nc_interface/xarray_to_na.py`, which calls it until no variable is left. Messages are left out. -/

namespace Nappy

variable {F : Type}

/-! ### Sorting the variables -/

/-- State of the first loop of `_analyseVariables`, lines 125-152: the best variable so far with its position. -/
abbrev Best (F : Type) := Option (Nat × XVar F)

/-- One turn of the loop, lines 125-152. `i` is `count - 1`. Rank-zero variables are skipped. -/
def bestStep (best : Best F) (i : Nat) (v : XVar F) : Best F :=
  if v.rank = 0 then best
  else match best with
    | none => some (i, v)
    | some (_, b) =>
      if v.rank > b.rank || (v.rank == b.rank && decide (v.size > b.size)) then some (i, v) else best

/-- The loop, lines 125-152. -/
def bestGo (best : Best F) (i : Nat) : List (XVar F) → Best F
  | [] => best
  | v :: vs => bestGo (bestStep best i v) (i + 1) vs

/-- `self.rank_zero_vars` after the loop, lines 134-137. -/
def rankZeroVars (vars : List (XVar F)) : List (XVar F) := vars.filter (fun v => v.rank == 0)

/-- State of the second loop, lines 182-233. `ffis` is `ffis_limited`, `none` for `False`. -/
structure SortState (F : Type) where
  main : List (XVar F)
  aux : List (XVar F)
  unused : List (XVar F)
  ffis : Option (List Int)
  nvpm : Option Nat

/-- `for i in range(number_of_dims): if not areAxesIdentical(...)`, lines 226-233: all axes are judged
identical. -/
def sameAxes (eq : F → F → Bool) : List (XAxis F) → List (XAxis F) → Bool
  | a :: as, b :: bs => areAxesIdentical eq a b && sameAxes eq as bs
  | _, _ => true

/-- A one-dimensional variable of another shape, lines 193-219. `ax0` is the first axis of the best variable,
`first` the axis of the variable. A factor of zero counts as `False`. -/
def sortOneDim (env : XEnv F) (ax0 first : XAxis F) (s : SortState F) (v : XVar F) : Res (SortState F) :=
  if areAxesIdentical env.eq ax0 first then
    if s.ffis = some [1020] then .ok { s with unused := s.unused ++ [v] }
    else .ok { s with aux := s.aux ++ [v] }
  else
    match subsetFactor env.eq first ax0 with
    | .error e => .error e
    | .ok none => .ok { s with unused := s.unused ++ [v] }
    | .ok (some 0) => .ok { s with unused := s.unused ++ [v] }
    | .ok (some n) => .ok { s with ffis := some [1020], nvpm := some n }

/-- One turn of the second loop, lines 182-233. `b` is the best variable, `zeroIds` the names of the rank-zero
variables. -/
def sortStep (env : XEnv F) (b : XVar F) (zeroIds : List Str) (s : SortState F) (v : XVar F) :
    Res (SortState F) :=
  if v.name ∈ zeroIds then .ok s
  else if v.shape ≠ b.shape then
    match v.axes with
    | [first] => do
      let ax0 ← coordByIndex b 0
      sortOneDim env ax0 first s v
    | _ => .ok { s with unused := s.unused ++ [v] }
  else if sameAxes env.eq b.axes v.axes then .ok { s with main := s.main ++ [v] }
  else .ok { s with unused := s.unused ++ [v] }

/-- The second loop, lines 182-233. -/
def sortGo (env : XEnv F) (b : XVar F) (zeroIds : List Str) (s : SortState F) :
    List (XVar F) → Res (SortState F)
  | [] => .ok s
  | v :: vs => do
    let s ← sortStep env b zeroIds s v
    sortGo env b zeroIds s vs

/-- `ffis_limited` before the second loop, lines 166-174. -/
def initialFFIs (env : XEnv F) (b : XVar F) : Res (Option (List Int)) :=
  if b.rank = 2 then do
    let ax ← coordByIndex b 1
    let u ← env.uniform ax
    .ok (some (if u then [2010, 2110, 2310] else [2010, 2110]))
  else .ok none

/-! ### Reordering -/

/-- `ordered_vars[i] = var` on a list: negative positions count from the end. -/
def setSlot {α : Type} (l : List (Option α)) (i : Int) (a : α) : Res (List (Option α)) :=
  if 0 ≤ i ∧ i < l.length then .ok (l.set i.toNat (some a))
  else if i < 0 ∧ -l.length ≤ i then .ok (l.set (l.length + i).toNat (some a))
  else .error .index

/-- The loop of lines 254-258 (and 273-277): slots for numbered variables and a list of the others. -/
def slotGo {α : Type} (num : α → Option Int) (slots : List (Option α)) (others : List α) :
    List α → Res (List (Option α) × List α)
  | [] => .ok (slots, others)
  | v :: vs =>
    match num v with
    | some i => do
      let slots ← setSlot slots i v
      slotGo num slots others vs
    | none => slotGo num slots (others ++ [v]) vs

/-- One half of `_reorderVarsIfPreviouslyNA`, lines 248-267 (and 269-283). -/
def reorderBy {α : Type} (num : α → Option Int) (vars : List α) : Res (List α) := do
  let r ← slotGo num (List.replicate 1000 none) [] vars
  .ok (r.1.filterMap id ++ r.2)

/-! ### The format -/

/-- The part of `_decideFileFormatIndex` based on the number of dimensions, lines 302-316. -/
def ffiForDims (requested : Option Int) (dims : Nat) (naux : Nat) : Res Int :=
  if dims > 4 then .error .exn
  else if dims > 2 then .ok (10 + (dims : Int) * 1000)
  else if dims = 2 then
    .ok (match requested with
      | some r => if r = 2010 ∨ r = 2110 ∨ r = 2310 then r else 2010
      | none => 2010)
  else if naux > 0 then .ok 1010
  else .ok 1001

/-- `_decideFileFormatIndex`, lines 286-320. `NAUXV` is not yet in the dictionary. A requested index of 0 counts
as none. `ffis_limited` is never an empty list. -/
def decideFFI (requested : Option Int) (dims : Nat) (naux : Nat) (ffis : Option (List Int)) : Res Int :=
  match requested.filter (· != 0), ffis with
  | some r, some l => if r ∈ l then .ok r else .error .exn
  | req, _ => do
    let ffi ← ffiForDims requested dims naux
    match req with
    | some r => if ffi = r then .ok ffi else .error .exn
    | none => .ok ffi

/-! ### One pass -/

/-- What `_analyseVariables` leaves: the two lists returned, `rank_zero_vars`, `unused_vars`, `NIV`, `FFI` and
`NVPM` of the dictionary. -/
structure Analysis (F : Type) where
  main : List (XVar F)
  aux : List (XVar F)
  zero : List (XVar F)
  unused : List (XVar F)
  niv : Nat
  ffi : Int
  nvpm : Option Nat

/-- `_analyseVariables`, lines 113-240. `none` stands for `([], [])`, when `collectNAContent` (lines 96-98)
sets `unused_vars` to `[]`. -/
def analyse (env : XEnv F) (requested : Option Int) (vars : List (XVar F)) : Res (Option (Analysis F)) :=
  match bestGo none 0 vars with
  | none => .ok none
  | some (i, b) => do
    let ffis ← initialFFIs env b
    let s ← sortGo env b ((rankZeroVars vars).map XVar.name)
      { main := [b], aux := [], unused := [], ffis := ffis, nvpm := none } (vars.eraseIdx i)
    let main ← reorderBy XVar.naNumber s.main
    let aux ← reorderBy XVar.naAuxNumber s.aux
    let ffi ← decideFFI requested b.rank aux.length s.ffis
    .ok (some { main := main, aux := aux, zero := rankZeroVars vars, unused := s.unused, niv := b.rank,
                ffi := ffi, nvpm := s.nvpm })

/-! ### All passes -/

/-- `_convertSingletonVars`, `xarray_to_na.py` lines 132-155: rank-zero variables get their best name. The
attribute `value` is added to their attributes; `show_` is the text of the number. -/
def convertSingletonVars (show_ : Tree F → Str) (vars : List (XVar F)) : Res (List (XVar F)) :=
  mapRes (fun v =>
    if v.rank = 0 then do
      let n ← v.bestName
      .ok { v with name := n, attrs := dictSet v.attrs "value" (show_ v.data), miss := none,
                   encUnits := none }
    else .ok v) vars

/-- `_reorderVars`, `xarray_to_na.py` lines 157-196: variables named like a dimension are left out. The test for
a variable number looks for an attribute of a `dict` and never succeeds, so nothing is reordered. The message for
too many variables adds a number to a string. -/
def dropCoordinateVars (vars : List (XVar F)) : Res (List (XVar F)) :=
  if vars.length > 5000 then .error .type
  else .ok (vars.filter (fun v => !(vars.flatMap (fun w => w.axes.map XAxis.name)).contains v.name))

/-- The loop of `convert`, `xarray_to_na.py` lines 116-125. `pass` is one call of the collector; it raises or
gives `none` if no content was found (then `unused_vars` is `[]`). The fuel bounds the number of turns;
`Err.hang` is a loop that goes on. -/
def convertLoop {α β : Type} (pass : List α → Res (Option (β × List α))) :
    Nat → List α → Res (List β)
  | _, [] => .ok []
  | 0, _ :: _ => .error .hang
  | n + 1, v :: vs => do
    let r ← pass (v :: vs)
    match r with
    | none => .ok []
    | some (b, unused) => do
      let rest ← convertLoop pass n unused
      .ok (b :: rest)

/-- One call of the collector as `convert` sees it. -/
def analysePass (env : XEnv F) (requested : Option Int) (vars : List (XVar F)) :
    Res (Option (Analysis F × List (XVar F))) := do
  let a ← analyse env requested vars
  .ok (a.map (fun a => (a, a.unused)))

/-- `convert`, `xarray_to_na.py` lines 72-130, up to the contents of the dictionaries: the passes. `none` for
`None` (no files). -/
def convert (env : XEnv F) (show_ : Tree F → Str) (requested : Option Int) (fuel : Nat)
    (vars : List (XVar F)) : Res (Option (List (Analysis F))) := do
  let vars ← convertSingletonVars show_ vars
  let vars ← dropCoordinateVars vars
  let a ← analyse env requested vars
  match a with
  | none => .ok none
  | some a => do
    let rest ← convertLoop (analysePass env requested) fuel a.unused
    .ok (some (a :: rest))

end Nappy
