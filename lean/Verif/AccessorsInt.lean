import Verif.Accessors
import Verif.FFI2

/-!
The metadata accessors of `nappy/na_file/na_core.py`, lines 120-217, for any whole number: a negative number counts from
the end, as for every list of Python.
-/

namespace Nappy

variable {F : Type}

/-- `v[i]` on a dynamically typed value, any index. -/
def PyVal.itemI (v : PyVal F) (i : Int) : Res (PyVal F) :=
  match v with
  | .list l => idxI l i
  | .str s => do
    let c ← idxI s i
    .ok (.str [c])
  | _ => .error .type

/-- `getVariable(var_number)`, lines 120-129, with `getMissingValue` and `getScaleFactor`, lines 192-203. -/
def NACore.getVariableI (cb : UnitsCallback) (c : NACore F) (i : Int) : Res (VarMeta F) := do
  let item ← (c.attr "VNAME").itemI i
  let vu ← namedUnits cb item
  let miss ← (c.attr "VMISS").itemI i
  let scale ← (c.attr "VSCAL").itemI i
  .ok (vu.1, vu.2, miss, scale)

/-- `getIndependentVariable(ivar_number)`, lines 132-138. -/
def NACore.getIndependentVariableI (cb : UnitsCallback) (c : NACore F) (i : Int) : Res (Str × Option Str) := do
  let item ← (c.attr "XNAME").itemI i
  namedUnits cb item

/-- The choice of the scale factor in `getAuxVariable`, lines 148-151, with `getAuxScaleFactor`, lines 213-217. -/
def NACore.auxScaleI (c : NACore F) (i : Int) : Res (PyVal F) :=
  match c.attr "NAUXC", c.attr "NAUXV" with
  | .none, _ => (c.attr "ASCAL").itemI i
  | .int nc, .int nv => if i < nv - nc then (c.attr "ASCAL").itemI i else .ok .none
  | _, _ => .error .type

/-- `getAuxVariable(avar_number)`, lines 141-152, with `getAuxMissingValue`, lines 206-210. -/
def NACore.getAuxVariableI (cb : UnitsCallback) (c : NACore F) (i : Int) : Res (VarMeta F) := do
  let item ← (c.attr "ANAME").itemI i
  let vu ← namedUnits cb item
  let miss ← (c.attr "AMISS").itemI i
  let scale ← c.auxScaleI i
  .ok (vu.1, vu.2, miss, scale)

end Nappy
