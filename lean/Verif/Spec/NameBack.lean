import Verif.Spec.ToNC
import Verif.Spec.FileBack

/-! Specification vocabulary for what becomes of the names of variables on the way to NetCDF and back. -/

namespace Nappy.Spec

/-- The name with which a variable called `id` with the units `units` comes back: the units are in brackets at the end,
without white space at their ends, and if there are none, the name is `id`. -/
def NamedBack (id : Str) (units : Option Str) (name : Str) : Prop :=
  (strip (units.getD []) = [] ∧ name = id) ∨
    (strip (units.getD []) ≠ [] ∧ name = id ++ " (".toList ++ strip (units.getD []) ++ ")".toList)

/-- What becomes of a list of names: each is split into a name and units. The name gets a form that NetCDF tools can use
(C78), or is replaced by the one the caller wants, and the units are put in brackets at its end. For names of less than
64 characters, units without an opening bracket, and a new name without one. -/
def NamesBack (cb : UnitsCallback) (renames : Renames) (names names' : List Str) : Prop :=
  names'.length = names.length ∧
    ∀ (i : Nat) name name', names[i]? = some name → names'[i]? = some name' → (varAndUnits cb name).1.length < 64 →
      (∀ u, (varAndUnits cb name).2 = some u → '(' ∉ u) →
      ∃ id, IdFor (varAndUnits cb name).1 id ∧
        (NotWanted renames id → NamedBack id (varAndUnits cb name).2 name') ∧
        ∀ new, Wanted renames id new → '(' ∉ new → NamedBack new (varAndUnits cb name).2 name'

end Nappy.Spec
