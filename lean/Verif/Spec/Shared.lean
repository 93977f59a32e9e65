import Verif.Spec.Collector
import Mathlib.Data.List.Forall2

/-! Specification vocabulary: which axes the variables of one file share. -/

namespace Nappy.Spec

variable {F : Type}

/-- Axes of the same identity and length with a value in common at one position. -/
def AxesMeet (eq : F → F → Bool) (a b : XAxis F) : Prop :=
  SameIdentity a b ∧ a.values.length = b.values.length ∧
    ∃ (i : Nat) (x y : F), a.values[i]? = some x ∧ b.values[i]? = some y ∧ eq x y = true

/-- What one sees of an axis: name, units and values. -/
def axisFace (a : XAxis F) : Str × Option Str × List F := (a.name, a.units, a.values)

/-- Axes of the same identity that have a value in common have all values in common. -/
def AxesApart (eq : F → F → Bool) (vars : List (XVar F)) : Prop :=
  ∀ v ∈ vars, ∀ w ∈ vars, ∀ a ∈ v.axes, ∀ c ∈ w.axes, AxesMeet eq a c → a.values = c.values

/-- A variable without axes has the name of `v`. -/
def NamedLikeSingleton (vars : List (XVar F)) (v : XVar F) : Prop := ∃ z ∈ vars, z.axes = [] ∧ z.name = v.name

end Nappy.Spec
