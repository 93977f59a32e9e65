import Verif.Spec.Collect

/-! Specification vocabulary for the names of variables and the spacing of axes. -/

namespace Nappy.Spec

variable {F : Type}

/-- What a variable is called: its long name, else its standard name, else its title, else its identifier. -/
def calledBy (attrs : Dict Str) (id : Str) : Str :=
  match dictGet? attrs "long_name", dictGet? attrs "standard_name", dictGet? attrs "title" with
  | some s, _, _ => s
  | none, some s, _ => s
  | none, none, some s => s
  | none, none, none => id

/-- Its units: the attribute, or if that is absent or empty the units of the encoding; without white space at the
ends. -/
def unitsOf (units enc : Option Str) : Str :=
  strip (if units.getD [] = [] then enc.getD [] else units.getD [])

/-- Neighbours differ by `dx` all along the axis. -/
def Spaced (env : XEnv F) (xs : List F) (dx : F) : Prop :=
  ∀ i x y, xs[i]? = some x → xs[i + 1]? = some y → env.eq (env.sub y x) dx = true

/-- The spacing that is declared for an axis: the difference of the first two values if all neighbours differ by as
much, otherwise zero. -/
def Declared (env : XEnv F) (xs : List F) (dx : F) : Prop :=
  (∃ x y, xs[0]? = some x ∧ xs[1]? = some y ∧ dx = env.sub y x ∧ Spaced env xs dx) ∨
  (dx = env.zero ∧ ∀ x y, xs[0]? = some x → xs[1]? = some y → ¬ Spaced env xs (env.sub y x))

end Nappy.Spec
