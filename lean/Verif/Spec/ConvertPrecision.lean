import Verif.Spec.Precision
import Verif.Spec.ConvertFile

/-! How far the numbers of a converted file may be from those of the source. -/

namespace Nappy.Spec

variable {F : Type}

/-- How far a decimal number printed by `%f`, `%e` or `%g` may be from the number `y`. -/
def tolerance (fl : Floats F) (f : FloatFormat) (y : F) : ℚ :=
  match f.conv with
  | .fixed => 1 / 2 * 10 ^ (-(places f : Int))
  | _ => 5 * 10 ^ (-(keptDigits f : Int)) * |floatValue fl y|

/-- What is left of the number `y` in a file: with `%s`, and if it is infinite or NaN, the number itself; otherwise the
float next to a decimal number that has the sign of `y` and is as near as the number format promises. -/
def Preserves (fl : Floats F) (f : FloatFormat) (y z : F) : Prop :=
  (fl.special y ≠ none ∨ f.conv = .str → z = y) ∧
  (fl.special y = none → f.conv ≠ .str → ∃ m e, z = fl.near (fl.neg y) m e ∧
    |decimalValue (fl.neg y) m e - floatValue fl y| ≤ tolerance fl f y)

/-- The numbers of a file, one by one, are what is left of those of the variables. -/
structure NumbersPreserved (env : XEnv F) (fl : Floats F) (f : FloatFormat) (a : Analysis F) (o : Obj F) : Prop where
  main : List.Forall₂ (fun v l => List.Forall₂ (Preserves fl f) (leaves (written env v)) l) a.main (mainValues o)
  aux : a.ffi ≠ 1001 → a.ffi ≠ 1020 → ∃ pre more, pre.length = ownAux a.ffi ∧ auxValues o = pre ++ more ∧
    List.Forall₂ (fun v l => List.Forall₂ (Preserves fl f) (leaves (written env v)) l) a.aux more
  marks : a.ffi ≠ 1020 → ∃ v ax, a.main.head? = some v ∧ v.axes.head? = some ax ∧
    List.Forall₂ (Preserves fl f) ax.values (markValues o)
  missing : (varHeader o).VMISS = a.main.map (fun v => v.miss.getD env.defaultMiss)

end Nappy.Spec
