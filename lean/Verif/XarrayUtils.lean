import Verif.ListManip
import Verif.PyVal

/-! Model of the functions of `nappy/nc_interface/xarray_utils.py` that `NAContentCollector` uses.

Simplifications. A variable is a `DataArray` whose dimensions all have a coordinate of the same length (with no
such coordinate the code raises `KeyError`). Coordinates hold numbers; time coordinates are taken as already
converted by `datetimes_to_nums`. Dask arrays are computed. -/

namespace Nappy

variable {F : Type}

/-- A coordinate: what `areAxesIdentical` and the collector look at. `cf` lists the names that
`coord.cf[axtype].name` gives for the axis types found, `attrs` the attributes that are strings, `encUnits` the
units in the encoding. -/
structure XAxis (F : Type) where
  name : Str
  attrs : Dict Str
  encUnits : Option Str
  cf : Dict Str
  values : List F
  deriving DecidableEq

/-- `getattr(ax, 'units', None)` -/
def XAxis.units (a : XAxis F) : Option Str := dictGet? a.attrs "units"

/-- A variable. `naNumber` and `naAuxNumber` are the attributes `nasa_ames_var_number` and
`nasa_ames_aux_var_number`. `miss` is the value found in the encoding (lines 74-78). `attrs` are the attributes
that are strings, `encUnits` the units in the encoding. -/
structure XVar (F : Type) where
  name : Str
  axes : List (XAxis F)
  data : Tree F
  naNumber : Option Int
  naAuxNumber : Option Int
  miss : Option F
  attrs : Dict Str
  encUnits : Option Str

/-- Arithmetic and comparison of numbers, as numpy does them. `eq` is `==` (`!=` is its negation), `uniform`
is `isUniformlySpaced`, lines 93-106, which rounds. `ofNat` is a count among the data. -/
structure XEnv (F : Type) where
  ofNat : Nat → F
  eq : F → F → Bool
  sub : F → F → F
  zero : F
  one : F
  isNaN : F → Bool
  defaultMiss : F
  uniform : XAxis F → Res Bool

/-- `var.shape` -/
def XVar.shape (v : XVar F) : List Nat := v.axes.map (fun a => a.values.length)

/-- `len(var.shape)` -/
def XVar.rank (v : XVar F) : Nat := v.axes.length

/-- `var.size` -/
def XVar.size (v : XVar F) : Nat := v.shape.foldr (· * ·) 1

/-- `axtype in ax1.cf and axtype in ax2.cf and ax1.cf[axtype].name != ax2.cf[axtype].name`, line 130. -/
def cfDiffers (a b : XAxis F) (axtype : String) : Bool :=
  match dictGet? a.cf axtype, dictGet? b.cf axtype with
  | some x, some y => x != y
  | _, _ => false

/-- The axis types looked at, line 129. -/
def cfTypes : List String := ["time", "level", "latitude", "longitude"]

/-- The checks before the values, `areAxesIdentical` lines 129-139: the axes may be the same. -/
def axesCompatible (checkId : Bool) (a b : XAxis F) : Bool :=
  if cfTypes.any (cfDiffers a b) then false
  else if checkId && a.name != b.name then false
  else if a.units != b.units then false
  else true

/-- `all(ax1.data != ax2.data)` for arrays of the same length, line 144. -/
def allDiffer (eq : F → F → Bool) : List F → List F → Bool
  | x :: xs, y :: ys => !eq x y && allDiffer eq xs ys
  | _, _ => true

/-- `areAxesIdentical(ax1, ax2)`, lines 117-170 with the default arguments. -/
def areAxesIdentical (eq : F → F → Bool) (a b : XAxis F) : Bool :=
  if !axesCompatible true a b then false
  else if a.values.length != b.values.length || allDiffer eq a.values b.values then false
  else true

/-- The loop of lines 159-164: every value of `ax1` is found in `ax2` at `n` times its position. -/
def subsetGo (eq : F → F → Bool) (n : Nat) (ys : List F) : Nat → List F → Res Bool
  | _, [] => .ok true
  | i, x :: xs => do
    let y ← idx ys (n * i)
    if eq y x then subsetGo eq n ys (i + 1) xs else .ok false

/-- `isAxisRegularlySpacedSubsetOf(ax1, ax2)`, lines 109-114 and 146-167: the factor, `none` for `False`. The
division `len2 / len1` is exact where it is used. -/
def subsetFactor (eq : F → F → Bool) (a b : XAxis F) : Res (Option Nat) :=
  if !axesCompatible false a b then .ok none
  else if a.values.length = 0 then .error .zeroDiv
  else if b.values.length % a.values.length != 0 then .ok none
  else do
    let ok ← subsetGo eq (b.values.length / a.values.length) b.values 0 a.values
    .ok (if ok then some (b.values.length / a.values.length) else none)

/-- `get_coord_by_index(da, indx)`, lines 261-268. -/
def coordByIndex (v : XVar F) (i : Nat) : Res (XAxis F) := idx v.axes i

/-- `get_interval(da, i, j)`, lines 295-303. -/
def getInterval (sub : F → F → F) (l : List F) (i j : Nat) : Res F := do
  let y ← idx l j
  let x ← idx l i
  .ok (sub y x)

/-- `getMissingValue(var)`, lines 68-83. -/
def getMissing (env : XEnv F) (v : XVar F) : F :=
  match v.miss with
  | some m => m
  | none => env.defaultMiss

/-- `fillna(missing_value)` on one value, lines 317-322. -/
def fillNaN (env : XEnv F) (miss x : F) : F := if env.isNaN x then miss else x

/-- A function applied to every number of a nested list. -/
def Tree.mapVals (f : F → F) : Tree F → Tree F
  | .val x => .val (f x)
  | .lst l => .lst (go l)
where
  go : List (Tree F) → List (Tree F)
    | [] => []
    | t :: ts => t.mapVals f :: go ts

/-- `getArrayAsList(var, missing_value=miss)`, lines 306-331. -/
def arrayAsList (env : XEnv F) (miss : F) (t : Tree F) : Tree F := t.mapVals (fillNaN env miss)

/-! ### getBestName -/

/-- `att_order`, line 26: the attributes tried before `name`. -/
def nameAttrs : List String := ["long_name", "standard_name", "title"]

/-- The loop of lines 29-32. A `DataArray` always has `name`. -/
def pickName (attrs : Dict Str) (name : Str) : List String → Str
  | [] => name
  | k :: ks =>
    match dictGet? attrs k with
    | some v => v
    | none => pickName attrs name ks

/-- `s.replace(sub, new)` for a `sub` that is not empty: left to right, `k` characters are still to be
skipped. -/
def replaceGo (sub new : Str) : Nat → Str → Str
  | _, [] => []
  | k + 1, _ :: cs => replaceGo sub new k cs
  | 0, c :: cs =>
    if sub.isPrefixOf (c :: cs) then new ++ replaceGo sub new (sub.length - 1) cs
    else c :: replaceGo sub new 0 cs

/-- `s.replace(sub, new)` -/
def replaceSub (sub new s : Str) : Str := replaceGo sub new 0 s

/-- `s.count(sub)` for a `sub` that is not empty. -/
def countGo (sub : Str) : Nat → Str → Nat
  | _, [] => 0
  | k + 1, _ :: cs => countGo sub k cs
  | 0, c :: cs =>
    if sub.isPrefixOf (c :: cs) then 1 + countGo sub (sub.length - 1) cs else countGo sub 0 cs

/-- `s.count(sub)` -/
def countSub (sub s : Str) : Nat := countGo sub 0 s

/-- `(units)` -/
def bracketed (units : Str) : Str := '(' :: (units ++ [')'])

/-- The name with the units, lines 54-59. -/
def withUnits (name units : Str) : Str :=
  let n1 := name ++ [' '] ++ bracketed units
  if countSub (bracketed units) n1 > 1 then replaceSub (bracketed units) [] n1 ++ bracketed units
  else n1

/-- `if name[-2:] == "()": name = name[:-2]`, lines 62-63. -/
def dropEmptyBrackets (name : Str) : Str :=
  if name.drop (name.length - 2) = "()".toList then name.take (name.length - 2) else name

/-- `getBestName(var)`, lines 17-65. An empty name raises. -/
def bestNameOf (attrs : Dict Str) (name : Str) (units encUnits : Option Str) : Res Str :=
  let n := pickName attrs name nameAttrs
  if n = [] then .error .exn
  else
    let u := match units with
      | some u => if u = [] then encUnits.getD [] else u
      | none => encUnits.getD []
    let u := strip u
    .ok (dropEmptyBrackets (if u = [] then n else withUnits n u))

/-- `getBestName` of a variable. -/
def XVar.bestName (v : XVar F) : Res Str := bestNameOf v.attrs v.name (dictGet? v.attrs "units") v.encUnits

/-- `getBestName` of a coordinate. -/
def XAxis.bestName (a : XAxis F) : Res Str := bestNameOf a.attrs a.name a.units a.encUnits

end Nappy
