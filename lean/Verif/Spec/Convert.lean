import Mathlib.Data.List.Forall2
import Verif.XarrayToNA

/-! What conversion from NetCDF to NASA Ames should do with dictionaries, file names and comments. -/

namespace Nappy.Spec

variable {F : Type}

/-- `chunks` is `all` cut into blocks of `n`: nothing is lost or moved, every block but the last has `n`
members and the last has at least one and at most `n`. -/
structure CutInto {α : Type} (n : Nat) (all : List α) (chunks : List (List α)) : Prop where
  whole : chunks.flatten = all
  full : ∀ c ∈ chunks.dropLast, c.length = n
  last : ∀ c ∈ chunks.getLast?, 1 ≤ c.length ∧ c.length ≤ n

/-- The items of the dictionary that differ from file to file. -/
def splitKeys : List String := ["X", "V", "IVOL", "NVOL"]

/-- `files` hold the records of `d` in blocks of at most `n`. `x` is the independent variable and `cols` are
the variables of `d`. -/
structure SplitFiles (d : Dict (PyVal F)) (x : List (PyVal F)) (cols : List (List (PyVal F))) (n : Nat)
    (files : List (WriteCall F)) : Prop where
  /-- the independent variable is cut into blocks of `n` -/
  x : ∃ xs, CutInto n x xs ∧ List.Forall₂ (fun c xi => dictGet? c.dict "X" = some (.list xi)) files xs
  /-- and so is every variable -/
  v : ∃ vs : List (List (List (PyVal F))),
    (∀ (j : Nat) col, cols[j]? = some col → ∃ cs, CutInto n col cs ∧
      List.Forall₂ (fun (block : List (List (PyVal F))) ci => block[j]? = some ci) vs cs) ∧
    List.Forall₂ (fun c (block : List (List (PyVal F))) => block.length = cols.length ∧
      dictGet? c.dict "V" = some (.list (block.map .list))) files vs
  /-- the volumes are numbered from 1 -/
  ivol : ∀ (i : Nat) c, files[i]? = some c → dictGet? c.dict "IVOL" = some (.int (i + 1))
  /-- and every file has the number of volumes -/
  nvol : ∀ c ∈ files, dictGet? c.dict "NVOL" = some (.int files.length)
  /-- all other items are those of `d` -/
  rest : ∀ c ∈ files, c.dict.map Prod.fst = d.map Prod.fst ∧
    ∀ k, k ∉ splitKeys → dictGet? c.dict k = dictGet? d k

/-- The header items a user may override. -/
def overridable : List String :=
  ["DATE", "RDATE", "ANAME", "MNAME", "ONAME", "ORG", "SNAME", "VNAME", "SCOM", "NCOM"]

/-- `k` may change when the items of `o` are overridden: it is an overridable item of `o`, or the number of
lines of comments that are in `o`. -/
def MayChange (o : Dict (PyVal F)) (k : String) : Prop :=
  (k ∈ overridable ∧ k ∈ o.map Prod.fst) ∨ (k = "NSCOML" ∧ "SCOM" ∈ o.map Prod.fst) ∨
    (k = "NNCOML" ∧ "NCOM" ∈ o.map Prod.fst)

/-- `merged` holds the lines `old` with the lines `new` before (`insert`) or after them. If `old` begins with
the line `start` it stays the first line, and if `old` ends in one of `ends` that stays the last line. -/
structure Merged (start : Str) (ends old new : List Str) (insert : Bool) (merged : List Str) : Prop where
  lines : ∃ first body last, old = first ++ body ++ last ∧
    merged = first ++ (if insert then new ++ body else body ++ new) ++ last ∧
    first = (if old.head? = some start then [start] else []) ∧
    (∀ l, old.getLast? = some l → last = if l ∈ ends then [l] else [])

end Nappy.Spec
