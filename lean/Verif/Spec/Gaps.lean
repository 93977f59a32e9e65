import Verif.Spec.ConvertPrecision

/-! Gaps in the data of the source and in the file. -/

namespace Nappy.Spec

variable {F : Type}

/-- The missing value of a variable, or the default. -/
def missingOf (env : XEnv F) (v : XVar F) : F := v.miss.getD env.defaultMiss

/-- The value at place `j` of variable `i` in the source is a gap. -/
def GapAt (env : XEnv F) (vars : List (XVar F)) (i j : Nat) : Prop :=
  ∃ v y, vars[i]? = some v ∧ (leaves v.data)[j]? = some y ∧ env.isNaN y = true

/-- The value at place `j` of variable `i` in a file equals the missing value that the header gives for this variable. -/
def MissingAt (env : XEnv F) (values : List (List F)) (missing : List F) (i j : Nat) : Prop :=
  ∃ l m z, values[i]? = some l ∧ missing[i]? = some m ∧ l[j]? = some z ∧ env.eq z m = true

/-- The number format keeps the missing value, and turns no other value of the variable into it. -/
def MissingApart (env : XEnv F) (q : F → F) (v : XVar F) : Prop :=
  env.eq (q (missingOf env v)) (missingOf env v) = true ∧
  ∀ y ∈ leaves v.data, env.isNaN y = false → env.eq (q y) (missingOf env v) = false

/-- `==` for floats: finite ones are equal if they are the same number, and differ from the others. -/
def EqualsValues (fl : Floats F) (eq : F → F → Bool) : Prop :=
  ∀ y z, fl.special z = none →
    (fl.special y = none → (eq y z = true ↔ floatValue fl y = floatValue fl z)) ∧
    (fl.special y ≠ none → eq y z = false)

/-- A decimal number that is the value of a float is read as this value. -/
def ReadsExactly (fl : Floats F) : Prop :=
  ∀ y m e, fl.special y = none → decimalValue (fl.neg y) m e = floatValue fl y →
    fl.special (fl.near (fl.neg y) m e) = none ∧ floatValue fl (fl.near (fl.neg y) m e) = floatValue fl y

end Nappy.Spec
