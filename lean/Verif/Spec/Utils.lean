import Verif.Spec.Dict
import Verif.Core

/-! Specification vocabulary for the utility functions and the dictionary view of a file object. -/

namespace Nappy.Spec

variable {F : Type}

/-- The entry of a nested list at a list of positions, outermost position first. -/
def entry : Tree F → List Nat → Option F
  | .val x, [] => some x
  | .lst l, i :: is =>
    match l[i]? with
    | some t => entry t is
    | none => none
  | _, _ => none

/-- The place of an entry in row-major order: the last position runs fastest. -/
def rowMajor : List Nat → List Nat → Nat
  | _ :: ds, i :: is => i * ds.foldr (· * ·) 1 + rowMajor ds is
  | _, _ => 0

/-- Positions within the dimensions. -/
def InBounds (is dims : List Nat) : Prop := List.Forall₂ (· < ·) is dims

/-- Python's `d[k]` for a list of key and value pairs given one after the other: the last one wins. -/
def lastValue (pairs : List (Str × Str)) (k : Str) : Option Str :=
  (pairs.filter (fun p => p.1 = k)).getLast?.map Prod.snd

/-- The comma-separated text for a list of pairs. -/
def commaText (pairs : List (Str × Str)) : Str :=
  join [','] (pairs.map (fun p => [p.1, p.2])).flatten

/-- The dictionary `getNADict` gives for an object that was read. -/
def dictOf (ign : List Str) (o : Obj F) : Dict (PyVal F) := (o.core ign).getNADict.2

/-- What `chooseFFI` looks at in the axes of a two-dimensional file: 2010 needs two marks, 2110 a first mark
with at least two values, 2160 and 2310 one mark. -/
def Recognisable : Obj F → Prop
  | .o2010 r => r.c.FFI = 2010 → 2 ≤ r.X0.length
  | .o2110 r => ∃ m ms, r.X = m :: ms ∧ 2 ≤ m.2.length
  | .o2160 r => r.X ≠ []
  | .o2310 r => r.X ≠ []
  | _ => True

/-- The name with the new extension in the place of the old one. -/
inductive NewName (fmt : Str) : Str → Str → Prop
  | bare (name : Str) : '.' ∉ name → NewName fmt name (name ++ '.' :: fmt)
  | ext (base ext : Str) : '.' ∉ ext → NewName fmt (base ++ '.' :: ext) (base ++ '.' :: fmt)

end Nappy.Spec
