import Verif.XarrayUtils

/-! `isUniformlySpaced` of `nappy/nc_interface/xarray_utils.py`, and the numpy function it uses. -/

namespace Nappy

variable {F : Type}

/-- Arithmetic of numpy on the numbers of an axis. -/
structure Arith (F : Type) where
  add : F → F → F
  sub : F → F → F
  mul : F → F → F
  div : F → F → F
  ofNat : Nat → F
  zero : F
  eq : F → F → Bool

/-- One value of `np.linspace(start, stop, n)` before the last one is set: numpy multiplies the number of the value by
the step, or if the step underflows to zero, divides first and multiplies by the whole length. With one value there is
no step. -/
def Arith.point (ar : Arith F) (start stop : F) (n i : Nat) : F :=
  let delta := ar.sub stop start
  if n ≤ 1 then ar.add (ar.mul (ar.ofNat i) delta) start
  else
    let step := ar.div delta (ar.ofNat (n - 1))
    if ar.eq step ar.zero then ar.add (ar.mul (ar.div (ar.ofNat i) (ar.ofNat (n - 1))) delta) start
    else ar.add (ar.mul (ar.ofNat i) step) start

/-- `np.linspace(start, stop, n)`; the last of several values is `stop` itself. -/
def Arith.linspace (ar : Arith F) (start stop : F) (n : Nat) : List F :=
  (List.range n).map (fun i => if 1 < n ∧ i = n - 1 then stop else ar.point start stop n i)

/-- `isUniformlySpaced(arr)`, `xarray_utils.py` lines 93-106, for an array of numbers (lines 97-98 turn times into
numbers first, which is left out). An empty array has no first value. -/
def isUniformlySpaced (ar : Arith F) (l : List F) : Res Bool :=
  match l.head?, l.getLast? with
  | some start, some stop => .ok ((List.zip (ar.linspace start stop l.length) l).all (fun p => ar.eq p.1 p.2))
  | _, _ => .error .index

/-- The operations of the collector with this test in place of an arbitrary one. -/
def XEnv.withSpacing (env : XEnv F) (ar : Arith F) : XEnv F :=
  { env with uniform := fun ax => isUniformlySpaced ar ax.values }

end Nappy
