import Verif.Spec.Data

/-! Specification vocabulary for the cells of the data section. -/

namespace Nappy.Spec

variable {F : Type}

/-- The innermost lists of a list nested `n + 1` deep. -/
def innerRows : Nat → Tree F → List (List F)
  | n + 1, .lst l => (l.map (innerRows n)).flatten
  | _, t => [leaves t]

/-- The numbers and the strings among cells. -/
def cellNums (l : List (Cell F)) : List F :=
  l.filterMap (fun c => match c with | .num x => some x | .str _ => none)
def cellStrs (l : List (Cell F)) : List Str :=
  l.filterMap (fun c => match c with | .num _ => none | .str s => some s)

/-- The rows of the data section of a dictionary, each the list of its cells, for a way `fmt` to print numbers. -/
def cellRows (fmt : F → Str) : Obj F → List (List Str)
  | .o1001 r => r.X.mapIdx fun m x => (x :: atMark r.V m).map fmt
  | .o1010 r => (r.X.mapIdx fun m x =>
      [(x :: atMark r.A m).map fmt, (atMark r.V m).map fmt]).flatten
  | .o1020 r => (r.X.mapIdx fun m x => (x :: atMark r.A m).map fmt ::
      r.V.map fun col => ((col.drop (m * r.NVPM.toNat)).take r.NVPM.toNat).map fmt).flatten
  | .o2010 r => (r.X0.mapIdx fun m x => (x :: atMark r.A m).map fmt ::
      ((atMark r.V m).map fun t => (innerRows (r.NX.length - 1) t).map (List.map fmt)).flatten).flatten
  | .o2110 r => (r.X.mapIdx fun m x => (x.1 :: atMark r.A m).map fmt ::
      x.2.mapIdx fun p y => (y :: atMark (atMark r.V m) p).map fmt).flatten
  | .o2160 r => (r.X.mapIdx fun m x => [x.1] :: (cellNums (atMark r.A m)).map fmt ::
      ((cellStrs (atMark r.A m)).map (fun s => [s])
        ++ x.2.mapIdx fun p y => (y :: atMark (atMark r.V m) p).map fmt)).flatten
  | .o2310 r => (r.X.mapIdx fun m x => [(x.1 :: atMark r.A m).map fmt,
      (((List.range (r.NX.getD m 0).toNat).map (atMark (atMark r.V m))).flatten).map fmt]).flatten

/-- A cell that separators cannot be confused with: not empty, no comma, no white space. -/
def PlainCell (c : Str) : Prop := c ≠ [] ∧ ∀ ch ∈ c, ch ≠ ',' ∧ isSpace ch = false

instance (c : Str) : Decidable (PlainCell c) := by unfold PlainCell; infer_instance

/-- All rows have cells, and all cells are plain. -/
def PlainRows (rows : List (List Str)) : Prop := ∀ row ∈ rows, row ≠ [] ∧ ∀ c ∈ row, PlainCell c

instance (rows : List (List Str)) : Decidable (PlainRows rows) := by unfold PlainRows; infer_instance

/-- The dictionary is well formed for its format. -/
def WellFormed (count : F → Option Int) (incr : F → Option F) : Obj F → Prop
  | .o1001 r => Wf1001 r
  | .o1010 r => Wf1010 r
  | .o1020 r => Wf1020 r
  | .o2010 r => Wf2010 r
  | .o2110 r => Wf2110 count r
  | .o2160 r => ∃ N T, Wf2160 count r N T
  | .o2310 r => Wf2310 count incr r

/-- The same write call with another separator between values. -/
def withDelim (env : Env F) (d : Str) : Env F := { env with delim := d }

end Nappy.Spec
