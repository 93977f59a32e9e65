import Verif.Py

/-! Dynamically typed Python values and dictionaries, used where nappy passes NASA Ames dictionaries
around without looking at the format. -/

namespace Nappy

/-- A Python value as found in a NASA Ames dictionary. `F` is the type of floats. -/
inductive PyVal (F : Type) where
  | none
  | int (i : Int)
  | num (x : F)
  | str (s : Str)
  | list (l : List (PyVal F))

/-- A Python `dict` with string keys: pairs in insertion order, keys distinct by construction of
`dictSet`. -/
abbrev Dict (α : Type) := List (String × α)

/-- `d.get(k)` as an option; `none` when `k not in d`. -/
def dictGet? {α : Type} (d : Dict α) (k : String) : Option α :=
  match d with
  | [] => none
  | (k', v) :: t => if k' = k then some v else dictGet? t k

/-- `d[k]` -/
def dictGet {α : Type} (d : Dict α) (k : String) : Res α :=
  match dictGet? d k with
  | some v => .ok v
  | none => .error .key

/-- `k in d` -/
def dictHas {α : Type} (d : Dict α) (k : String) : Bool := (dictGet? d k).isSome

/-- `d[k] = v` -/
def dictSet {α : Type} (d : Dict α) (k : String) (v : α) : Dict α :=
  match d with
  | [] => [(k, v)]
  | (k', v') :: t => if k' = k then (k', v) :: t else (k', v') :: dictSet t k v

/-- `v[i]` on a dynamically typed value, non-negative index. Strings can be indexed too. -/
def PyVal.item {F : Type} (v : PyVal F) (i : Nat) : Res (PyVal F) :=
  match v with
  | .list l => idx l i
  | .str s => do
    let c ← idx s i
    .ok (.str [c])
  | _ => .error .type

end Nappy
