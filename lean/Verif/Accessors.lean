import Verif.Core

/-!
Model of the metadata accessors of `nappy/na_file/na_core.py`, lines 120-295. Variable numbers are taken as
natural numbers (a negative number would count from the end). `var_and_units_callback` is the optional
callback given to `openNAFile`.
-/

namespace Nappy

variable {F : Type}

/-- The callback given as `var_and_units_pattern`. -/
abbrev UnitsCallback := Option (Str → Str × Option Str)

/-- Metadata of a main or auxiliary variable: `(variable, units, miss, scale)`. -/
abbrev VarMeta (F : Type) := Str × Option Str × PyVal F × PyVal F

/-- `_attemptVarAndUnitsMatch(item)`, lines 62-78, on any value: what is not a string fails in `match`. -/
def namedUnits (cb : UnitsCallback) : PyVal F → Res (Str × Option Str)
  | .str s => .ok (varAndUnits cb s)
  | _ => .error .type

/-- `getMissingValue(var_number)`, lines 192-196. -/
def NACore.getMissingValue (c : NACore F) (i : Nat) : Res (PyVal F) := (c.attr "VMISS").item i

/-- `getScaleFactor(var_number)`, lines 199-203. -/
def NACore.getScaleFactor (c : NACore F) (i : Nat) : Res (PyVal F) := (c.attr "VSCAL").item i

/-- `getAuxMissingValue(avar_number)`, lines 206-210. -/
def NACore.getAuxMissingValue (c : NACore F) (i : Nat) : Res (PyVal F) := (c.attr "AMISS").item i

/-- `getAuxScaleFactor(avar_number)`, lines 213-217. -/
def NACore.getAuxScaleFactor (c : NACore F) (i : Nat) : Res (PyVal F) := (c.attr "ASCAL").item i

/-- `getVariable(var_number)`, lines 120-129. -/
def NACore.getVariable (cb : UnitsCallback) (c : NACore F) (i : Nat) : Res (VarMeta F) := do
  let item ← (c.attr "VNAME").item i
  let vu ← namedUnits cb item
  let miss ← c.getMissingValue i
  let scale ← c.getScaleFactor i
  .ok (vu.1, vu.2, miss, scale)

/-- `getIndependentVariable(ivar_number)`, lines 132-138. -/
def NACore.getIndependentVariable (cb : UnitsCallback) (c : NACore F) (i : Nat) :
    Res (Str × Option Str) := do
  let item ← (c.attr "XNAME").item i
  namedUnits cb item

/-- The choice of the scale factor in `getAuxVariable`, lines 148-151. -/
def NACore.auxScale (c : NACore F) (i : Nat) : Res (PyVal F) :=
  match c.attr "NAUXC", c.attr "NAUXV" with
  | .none, _ => c.getAuxScaleFactor i
  | .int nc, .int nv => if (i : Int) < nv - nc then c.getAuxScaleFactor i else .ok .none
  | _, _ => .error .type

/-- `getAuxVariable(avar_number)`, lines 141-152. -/
def NACore.getAuxVariable (cb : UnitsCallback) (c : NACore F) (i : Nat) : Res (VarMeta F) := do
  let item ← (c.attr "ANAME").item i
  let vu ← namedUnits cb item
  let miss ← c.getAuxMissingValue i
  let scale ← c.auxScale i
  .ok (vu.1, vu.2, miss, scale)

/-- `range(n)` for an attribute. -/
def rangeOf : PyVal F → Res (List Nat)
  | .int n => .ok (List.range n.toNat)
  | _ => .error .type

/-- `getVariables()`, lines 155-164. -/
def NACore.getVariables (cb : UnitsCallback) (c : NACore F) : Res (List (VarMeta F)) := do
  let is ← rangeOf (c.attr "NV")
  mapRes (c.getVariable cb) is

/-- `getIndependentVariables()`, lines 167-176. -/
def NACore.getIndependentVariables (cb : UnitsCallback) (c : NACore F) :
    Res (List (Str × Option Str)) := do
  let is ← rangeOf (c.attr "NIV")
  mapRes (c.getIndependentVariable cb) is

/-- `getAuxVariables()`, lines 179-189. -/
def NACore.getAuxVariables (cb : UnitsCallback) (c : NACore F) : Res (List (VarMeta F)) :=
  if (c.attr "NAUXV").isNone then .ok []
  else do
    let is ← rangeOf (c.attr "NAUXV")
    mapRes (c.getAuxVariable cb) is

/-- `getVolumes()`, lines 269-273. -/
def NACore.getVolumes (c : NACore F) : PyVal F × PyVal F := (c.attr "IVOL", c.attr "NVOL")

/-- `getFileDates()`, lines 276-281. -/
def NACore.getFileDates (c : NACore F) : PyVal F × PyVal F := (c.attr "DATE", c.attr "RDATE")

/-- `getFFI()`, `getNumHeaderLines()`, `getOriginator()`, `getOrganisation()`, `getOrg()`, `getSource()`,
`getMission()`, `getNormalComments()`, `getSpecialComments()`, lines 220-295: the attribute each of them
returns. -/
def accessorKey : String → Option String
  | "getNumHeaderLines" => some "NLHEAD"
  | "getFFI" => some "FFI"
  | "getOriginator" => some "ONAME"
  | "getOrganisation" => some "ORG"
  | "getOrg" => some "ORG"
  | "getSource" => some "SNAME"
  | "getMission" => some "MNAME"
  | "getNormalComments" => some "NCOM"
  | "getSpecialComments" => some "SCOM"
  | _ => none

/-- A call of one of these accessors. -/
def NACore.getSimple (c : NACore F) (name : String) : Res (PyVal F) :=
  match accessorKey name with
  | some k => .ok (c.attr k)
  | none => .error .attribute

end Nappy
