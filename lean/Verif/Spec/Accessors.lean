import Verif.Accessors
import Verif.Spec.Data

/-! Specification vocabulary for the metadata accessors. -/

namespace Nappy.Spec

variable {F : Type}

/-- The header section on the main variables. -/
def varHeader : Obj F → VarHdr F
  | .o1001 r => r.v
  | .o1010 r => r.v
  | .o1020 r => r.v
  | .o2010 r => r.v
  | .o2110 r => r.v
  | .o2160 r => r.v
  | .o2310 r => r.v

/-- The header section on the comments. -/
def comHeader : Obj F → ComHdr
  | .o1001 r => r.com
  | .o1010 r => r.com
  | .o1020 r => r.com
  | .o2010 r => r.com
  | .o2110 r => r.com
  | .o2160 r => r.com
  | .o2310 r => r.com

/-- Number and names of the independent variables. -/
def axisHeader : Obj F → Int × List Str
  | .o1001 r => (r.NIV, r.XNAME)
  | .o1010 r => (r.NIV, r.XNAME)
  | .o1020 r => (r.NIV, r.XNAME)
  | .o2010 r => (r.NIV, r.XNAME)
  | .o2110 r => (r.NIV, r.XNAME)
  | .o2160 r => (r.NIV, r.XNAME)
  | .o2310 r => (r.NIV, r.XNAME)

/-- Number of auxiliary variables. Format 1001 has none. -/
def auxCount : Obj F → Int
  | .o1001 _ => 0
  | .o1010 r => r.aux.NAUXV
  | .o1020 r => r.aux.NAUXV
  | .o2010 r => r.aux.NAUXV
  | .o2110 r => r.aux.NAUXV
  | .o2160 r => r.aux.NAUXV
  | .o2310 r => r.aux.NAUXV

/-- What the header declares for main variable `i`: name, missing value, scale factor. -/
def DeclaresVar (o : Obj F) (i : Nat) (name : Str) (miss scale : F) : Prop :=
  (varHeader o).VNAME[i]? = some name ∧ (varHeader o).VMISS[i]? = some miss ∧
    (varHeader o).VSCAL[i]? = some scale

/-- What the header declares for auxiliary variable `i`. In format 2160 the last `NAUXC` auxiliary variables
are text: their missing value is text and they have no scale factor. -/
def DeclaresAux : Obj F → Nat → Str → Cell F → Option F → Prop
  | .o1001 _, _, _, _, _ => False
  | .o1010 r, i, name, miss, scale => Plain r.aux i name miss scale
  | .o1020 r, i, name, miss, scale => Plain r.aux i name miss scale
  | .o2010 r, i, name, miss, scale => Plain r.aux i name miss scale
  | .o2110 r, i, name, miss, scale => Plain r.aux i name miss scale
  | .o2310 r, i, name, miss, scale => Plain r.aux i name miss scale
  | .o2160 r, i, name, miss, scale =>
    r.aux.ANAME[i]? = some name ∧ r.aux.AMISS[i]? = some miss ∧
      if (i : Int) < r.aux.NAUXV - r.aux.NAUXC then scale.isSome ∧ r.aux.ASCAL[i]? = scale
      else scale = none
where
  /-- All auxiliary variables are numbers. -/
  Plain (a : AuxHdr F) (i : Nat) (name : Str) (miss : Cell F) (scale : Option F) : Prop :=
    a.ANAME[i]? = some name ∧ (∃ m, a.AMISS[i]? = some m ∧ miss = .num m) ∧
      scale.isSome ∧ a.ASCAL[i]? = scale

/-- A cell as the accessor returns it. -/
def cellVal : Cell F → PyVal F
  | .num x => .num x
  | .str s => .str s

/-- A scale factor as the accessor returns it. -/
def scaleVal : Option F → PyVal F
  | some x => .num x
  | none => .none

/-- Auxiliary variables that are numbers: as many names, missing values and scale factors as variables. -/
def AuxCounts (a : AuxHdr F) : Prop :=
  0 < a.NAUXV → a.ANAME.length = a.NAUXV.toNat ∧ a.NAUXV.toNat ≤ a.AMISS.length ∧
    a.NAUXV.toNat ≤ a.ASCAL.length

/-- The header names every variable and has enough missing values and scale factors. -/
def HeaderCounts (o : Obj F) : Prop :=
  (varHeader o).VNAME.length = (varHeader o).NV.toNat ∧
  (varHeader o).NV.toNat ≤ (varHeader o).VMISS.length ∧
  (varHeader o).NV.toNat ≤ (varHeader o).VSCAL.length ∧
  (axisHeader o).2.length = (axisHeader o).1.toNat ∧
  match o with
  | .o1001 _ => True
  | .o1010 r => AuxCounts r.aux
  | .o1020 r => AuxCounts r.aux
  | .o2010 r => AuxCounts r.aux
  | .o2110 r => AuxCounts r.aux
  | .o2310 r => AuxCounts r.aux
  | .o2160 r => 0 < r.aux.NAUXV →
      r.aux.ANAME.length = r.aux.NAUXV.toNat ∧ r.aux.NAUXV.toNat ≤ r.aux.AMISS.length ∧
        (r.aux.NAUXV - r.aux.NAUXC).toNat ≤ r.aux.ASCAL.length

end Nappy.Spec
