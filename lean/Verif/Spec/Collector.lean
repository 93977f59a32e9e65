import Verif.Collector

/-! Specification vocabulary for the conversion of variables to NASA Ames dictionaries. -/

namespace Nappy.Spec

variable {F : Type}

/-- The axes carry the same identity: same name, same units, and no axis type (time, level, latitude, longitude)
for which both name a coordinate, but a different one. -/
def SameIdentity (a b : XAxis F) : Prop :=
  a.name = b.name ∧ a.units = b.units ∧
    ∀ t ∈ ["time", "level", "latitude", "longitude"], ∀ x y,
      dictGet? a.cf t = some x → dictGet? b.cf t = some y → x = y

/-- Every value of `xs` equals the one of `ys` at the same position. -/
def SameValues (eq : F → F → Bool) (xs ys : List F) : Prop :=
  xs.length = ys.length ∧
    ∀ (i : Nat) x y, xs[i]? = some x → ys[i]? = some y → eq x y = true

/-- `xs` consists of every `n`-th value of `ys`, from the first one on. -/
def EveryNth (eq : F → F → Bool) (n : Nat) (xs ys : List F) : Prop :=
  ys.length = n * xs.length ∧
    ∀ (i : Nat) x, xs[i]? = some x → ∃ y, ys[n * i]? = some y ∧ eq y x = true

/-- The variables of one output file: main, auxiliary and singleton. -/
def taken (a : Analysis F) : List (XVar F) := a.main ++ a.aux ++ a.zero

/-- No variable with axes has the name of a singleton. -/
def NamesApart (vars : List (XVar F)) : Prop :=
  ∀ v ∈ vars, ∀ w ∈ vars, v.axes ≠ [] → w.axes = [] → v.name ≠ w.name

/-- The axis of a variable with one axis is never just a regular subset of the first axis of another variable:
either the two are judged identical, or the test for a subset says no. -/
def NoSubsets (eq : F → F → Bool) (vars : List (XVar F)) : Prop :=
  ∀ v ∈ vars, ∀ w ∈ vars, ∀ a b more, v.axes = [a] → w.axes = b :: more →
    areAxesIdentical eq b a = true ∨ subsetFactor eq a b = .ok none

/-- The stored numbers are between 0 and 999 and all different. -/
def NumbersFit {α : Type} (num : α → Option Int) (vars : List α) : Prop :=
  (∀ v ∈ vars, ∀ i, num v = some i → 0 ≤ i ∧ i < 1000) ∧
    vars.Pairwise (fun v w => num v = none ∨ num v ≠ num w)

/-- The numbered variables come first, in increasing number, then the others as given. -/
def InStoredOrder {α : Type} (num : α → Option Int) (given result : List α) : Prop :=
  ∃ numbered, result = numbered ++ given.filter (fun v => (num v).isNone) ∧
    numbered.Pairwise (fun v w => ∃ i j, num v = some i ∧ num w = some j ∧ i < j) ∧
    (∀ v ∈ numbered, (num v).isSome) ∧ result.Perm given

/-- The number of independent variables of a format: the leading digit. -/
def formatDims (ffi : Int) : Int := ffi / 1000

end Nappy.Spec
