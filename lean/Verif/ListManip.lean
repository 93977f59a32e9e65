import Verif.Py
import Verif.Codec

/-! Model of `nappy/utils/list_manipulator.py`. `arrayToList` and `listOfListsCreator` are not used by
nappy and are not modelled. -/

namespace Nappy

/-- A Python value that is a number or a list of such values. -/
inductive Tree (F : Type) where
  | val (x : F)
  | lst (l : List (Tree F))

/-- `inlist[i]` -/
def Tree.child {F : Type} (t : Tree F) (i : Nat) : Res (Tree F) :=
  match t with
  | .lst l => idx l i
  | .val _ => .error .type

/-- `for i in range(d): inlist.append([]); self.populator(inlist[i], ...)`,
`list_manipulator.py` lines 76-78. The counter `self._counter` is passed along. -/
def popN {F : Type} (f : Nat → Res (List (Tree F) × Nat)) : Nat → Nat → Res (List (Tree F) × Nat)
  | 0, c => .ok ([], c)
  | k + 1, c => do
    let (t, c1) ← f c
    let (ts, c2) ← popN f k c1
    .ok (.lst t :: ts, c2)

/-- `RecursiveListManipulator.populator`, `list_manipulator.py` lines 65-85, filling an empty list.
Dimensions are natural numbers here. With a negative dimension every `range` over it is empty (the counter,
which then goes down, is only used by such ranges), so callers pass 0 for it. -/
def populate {F : Type} : List Nat → List F → Nat → Res (List (Tree F) × Nat)
  | [], _, _ => .error .index
  | [d], arr, c => do
    let xs ← mapRes (idx arr) (List.range' c d)
    .ok (xs.map .val, c + d)
  | d :: d2 :: ds, arr, c => popN (populate (d2 :: ds) arr) d c

/-- `(float_format + delimiter) % x`, `list_manipulator.py` line 101. The delimiter is taken to hold no
`%`. -/
def fmtLeaf {F : Type} (cd : Codec F) (delim : Str) : Tree F → Res Str
  | .val x => .ok (cd.ffmt x ++ delim)
  | .lst _ => .error .type

/-- `s.rstrip(" ,")` -/
def rstripSC (s : Str) : Str := rstripP (fun c => c == ' ' || c == ',') s

/-- `RecursiveListManipulator.writeLines`, `list_manipulator.py` lines 87-103. -/
def writeLines {F : Type} (cd : Codec F) (delim : Str) : List Nat → Tree F → Res (List Str)
  | [], _ => .error .index
  | [d], t => do
    let cells ← mapRes (fun i => do
      let x ← t.child i
      fmtLeaf cd delim x) (List.range d)
    .ok [rstripSC (concat cells) ++ ['\n']]
  | d :: d2 :: ds, t => do
    let ls ← mapRes (fun i => do
      let x ← t.child i
      writeLines cd delim (d2 :: ds) x) (List.range d)
    .ok ls.flatten

end Nappy
