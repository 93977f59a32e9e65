import Verif.Linspace
import Verif.PyFormat
import Mathlib.Algebra.Field.Basic
import Mathlib.Algebra.CharZero.Defs
import Mathlib.Algebra.Order.Ring.Rat
import Mathlib.Algebra.Order.Field.Power

/-! Evenly spaced axes. -/

namespace Nappy.Spec

/-- All differences of neighbours are the same. -/
def EvenlySpaced {K : Type} [Sub K] (l : List K) : Prop :=
  ∃ d, ∀ (i : Nat) x y, l[i]? = some x → l[i + 1]? = some y → y - x = d

/-- Arithmetic without rounding. -/
def exactArith (K : Type) [Field K] [DecidableEq K] : Arith K where
  add := (· + ·)
  sub := (· - ·)
  mul := (· * ·)
  div := (· / ·)
  ofNat n := n
  zero := 0
  eq x y := decide (x = y)

/-- The double next to a rational number (ties to even; no limits for the exponent): 53 binary digits. -/
def toDouble (q : ℚ) : ℚ :=
  if q = 0 then 0
  else
    let n := q.num.natAbs
    let s : Int := 53 - ((Nat.log2 n : Int) - Nat.log2 q.den)
    let low := n * 2 ^ s.toNat < 2 ^ 53 * (q.den * 2 ^ (-s).toNat)
    let s' : Int := if low then s else s - 1
    (if q < 0 then -1 else 1) * ((roundDiv (n * 2 ^ s'.toNat) (q.den * 2 ^ (-s').toNat) : Nat) : ℚ) / 2 ^ s'

/-- Arithmetic of doubles: every operation rounds. -/
def doubleArith : Arith ℚ where
  add x y := toDouble (x + y)
  sub x y := toDouble (x - y)
  mul x y := toDouble (x * y)
  div x y := toDouble (x / y)
  ofNat n := toDouble n
  zero := 0
  eq x y := decide (x = y)

end Nappy.Spec
