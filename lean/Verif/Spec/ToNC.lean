import Verif.Spec.ToXarray
import Verif.Api

/-! Specification vocabulary for NetCDF files made from NASA Ames files: the names of their variables. -/

namespace Nappy.Spec

variable {F : Type}

/-- White space and the characters that are not to be in the name of a NetCDF variable. -/
def badChars : Str := "/[()]=+-?#~@&$%!*{}^".toList

/-- A name for a NetCDF variable: no white space, none of the characters that cause trouble, no capital letters. -/
def GoodId (s : Str) : Prop := ∀ c ∈ s, isSpace c = false ∧ c ∉ badChars ∧ c.toLower = c

/-- Characters that are not to be in the name of a NetCDF variable. -/
def BadChar (c : Char) : Prop := isSpace c = true ∨ c ∈ badChars

/-- `t` is `s` with an underscore for every run of bad characters, in lower case. -/
inductive Cleaned : Str → Str → Prop
  | nil : Cleaned [] []
  | keep (c : Char) (s t : Str) : ¬ BadChar c → Cleaned s t → Cleaned (c :: s) (c.toLower :: t)
  | run (r s t : Str) : r ≠ [] → (∀ c ∈ r, BadChar c) → (∀ c, s.head? = some c → ¬ BadChar c) → Cleaned s t →
      Cleaned (r ++ s) ('_' :: t)

/-- `t` is the name made from `s`: an underscore for every run of bad characters, lower case. So it is a good one,
shorter or as long, and apart from underscores it has the good characters of `s`, in lower case and in the same order. -/
def IdFor (s t : Str) : Prop :=
  Cleaned s t ∧ GoodId t ∧ t.length ≤ s.length ∧ (s ≠ [] → t ≠ []) ∧
    t.filter (fun c => c != '_')
      = (s.filter (fun c => !isSpace c && !badChars.contains c && c != '_')).map Char.toLower

/-- What the caller wants a variable called `old` to be called: the last pair whose first member is `old`, with any
capitals. -/
def Wanted (renames : Renames) (old new : Str) : Prop :=
  ∃ pre k post, renames = pre ++ (k, new) :: post ∧ k.map Char.toLower = old ∧
    ∀ kv ∈ post, kv.1.map Char.toLower ≠ old

/-- No pair of the caller is about `old`. -/
def NotWanted (renames : Renames) (old : Str) : Prop := ∀ kv ∈ renames, kv.1.map Char.toLower ≠ old

/-- `w` is the last variable of its name in the list. -/
def LastOfName (l : List (XVar F)) (w : XVar F) : Prop :=
  ∃ pre post, l = pre ++ w :: post ∧ ∀ u ∈ post, u.name ≠ w.name

end Nappy.Spec
