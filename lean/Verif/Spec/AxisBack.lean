import Verif.Spec.NameBack

/-! Specification vocabulary for what becomes of the names of axes on the way to NetCDF and back. -/

namespace Nappy.Spec

variable {F : Type}

/-- The units that an axis gets: those in its name, or `Not known`. -/
def axisUnits (cb : UnitsCallback) (xname : Str) : Str :=
  if (varAndUnits cb xname).2.getD [] = [] then "Not known".toList else (varAndUnits cb xname).2.getD []

/-- The name made from what the axis is called and its units: they follow in brackets. If the text holds them already,
they are taken from there and put at the end, after another blank. -/
def TitledBack (title units name : Str) : Prop :=
  ∀ u, strip units = u → u ≠ [] → '(' ∉ u → ')' ∉ u →
    (¬ Occurs ("(".toList ++ u ++ ")".toList) title → name = title ++ " (".toList ++ u ++ ")".toList) ∧
      ∀ a b, title = a ++ ("(".toList ++ u ++ ")".toList) ++ b → ¬ Occurs ("(".toList ++ u ++ ")".toList) a →
        ¬ Occurs ("(".toList ++ u ++ ")".toList) b → name = a ++ b ++ " (".toList ++ u ++ ")".toList

/-- The name with which an axis comes back. -/
def AxisNamedBack (cb : UnitsCallback) (xname name : Str) : Prop :=
  TitledBack xname (axisUnits cb xname) name

/-- The name with which an axis comes back that is taken for one of time, if the units in its name are no units of time.
`t` are those that the user types, empty if nobody is asked; the name is given up. -/
def TimeNamedBack (cb : UnitsCallback) (t xname name : Str) : Prop :=
  TitledBack ("time (".toList ++ t ++ ")".toList) (if t = [] then axisUnits cb xname else t) name

/-- The units of time that are taken: those given; otherwise the first that the user types and that are units of time or
empty; otherwise, if the user is not to be asked, empty ones. -/
def TimeGiven (given : Option Str) (ask : Bool) (typed : List Str) (good : Str → Bool) (t : Str) : Prop :=
  given = some t ∨ (given = none ∧ ask = false ∧ t = []) ∨ (given = none ∧ ask = true ∧
    ∃ p q, typed = p ++ t :: q ∧ (t = [] ∨ good t = true) ∧ ∀ x ∈ p, x ≠ [] ∧ good x = false)

/-- The axis may be taken for one whose units of time have to be asked for. -/
def TimeAsked (env : ToXEnv F) (xname : Str) : Prop :=
  (∃ s d, env.isTime s d = true) ∧ env.timeMatch ((varAndUnits env.cb xname).2.getD "None".toList) = false

end Nappy.Spec
