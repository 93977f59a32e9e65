import Verif.Spec.Collector
import Verif.Api

/-! Specification vocabulary for the choice of variables in a conversion from NetCDF. -/

namespace Nappy.Spec

variable {F : Type}

/-- Two characters that differ at most in case, or are a blank and an underscore. -/
def AlikeChar (c d : Char) : Prop := c.toLower = d.toLower ∨ (c = ' ' ∧ d = '_') ∨ (c = '_' ∧ d = ' ')

/-- Two names that differ at most in case and in blanks for underscores. -/
def Alike (s t : Str) : Prop :=
  s.length = t.length ∧ ∀ (i : Nat) c d, s[i]? = some c → t[i]? = some d → AlikeChar c d

/-- The variables of a file that a call asks for: their identifiers are listed (if a list is given), they are not
like any of the names to be left out, and no attribute `bounds` names them. -/
def Asked (nc : NCFile F) (varIds : Option (List Str)) (excludeVars : List Str) (v : XVar F) : Prop :=
  v ∈ nc.vars ∧ (∀ l, varIds = some l → v.name ∈ l) ∧ (∀ e ∈ excludeVars, ¬ Alike v.name e) ∧
    ∀ w ∈ nc.vars, dictGet? w.attrs "bounds" ≠ some v.name

/-- `w` is the variable `v` as the conversion uses it: `v` itself, or if `v` is a single value, a variable without
axes that holds this value. -/
def UsedAs (v w : XVar F) : Prop :=
  (v.axes ≠ [] → w = v) ∧ (v.axes = [] → w.axes = [] ∧ w.data = v.data)

end Nappy.Spec
