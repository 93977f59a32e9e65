import Verif.PyFormat
import Mathlib.Algebra.Order.Ring.Rat
import Mathlib.Algebra.Order.Field.Power

/-! What the number formats are expected to do: which numbers the texts and the floats stand for. -/

namespace Nappy.Spec

variable {F : Type}

/-- The number with the given sign, digits and exponent. -/
def decimalValue (neg : Bool) (m : Nat) (e : Int) : ℚ := (if neg then -1 else 1) * ((m : ℚ) * 10 ^ e)

/-- The number that a finite float is. -/
def floatValue (fl : Floats F) (x : F) : ℚ := (if fl.neg x then -1 else 1) * ((fl.num x : ℚ) / fl.den x)

/-- What is assumed of floats: a magnitude has a denominator, the words for numbers that are not finite stand for these
numbers, and `str(x)` is one word that stands for `x`. -/
structure FloatsOk (fl : Floats F) : Prop where
  den_pos : ∀ x, fl.special x = none → 0 < fl.den x
  special_back : ∀ x s, fl.special x = some s → fl.ofSpecial s = x
  repr_token : ∀ x, Token (fl.repr x)
  repr_quote : ∀ x, '\x01' ∉ fl.repr x
  repr_parse : ∀ x, fl.parse (fl.repr x) = some x

/-- Formats that give readable numbers: texts are not cut off, and words like `inf` are not filled up with zeros. -/
def Readable (fl : Floats F) (f : FloatFormat) : Prop :=
  (f.conv = .str → f.prec = none) ∧
  (f.conv = .str ∨ f.zero = false ∨ f.left = true ∨ ∀ x, fl.special x = none)

/-- `float(float_format % x)` -/
def rounded (fl : Floats F) (f : FloatFormat) (x : F) : F := (fl.parse (fl.format f x)).getD x

/-- Decimals printed by `%f`, and behind the first digit by `%e`. -/
def places (f : FloatFormat) : Nat := f.prec.getD 6

/-- Digits kept by `%e` and `%g`. -/
def keptDigits (f : FloatFormat) : Nat :=
  match f.conv with
  | .general => max 1 (places f)
  | _ => places f + 1

/-- Floats precise enough for `digits` digits: the float next to a decimal number has its sign, is finite, and differs
relatively by at most a quarter of a unit of the last digit. Doubles are for `digits ≤ 15`, apart from numbers beyond
their range. -/
def Precise (fl : Floats F) (digits : Nat) : Prop :=
  ∀ n m e, fl.special (fl.near n m e) = none ∧ fl.neg (fl.near n m e) = n ∧
    4 * |decimalValue n m e - floatValue fl (fl.near n m e)| ≤ 10 ^ (-(digits : Int)) * |decimalValue n m e|

/-- The format `%w.pf` and its like, without flags. -/
def plainFormat (w p : Nat) (conv : Conv) (upper : Bool) : FloatFormat :=
  { left := false, plus := false, blank := false, zero := false, alt := false, width := w, prec := some p, conv := conv,
    upper := upper }

end Nappy.Spec
