import Verif.Spec.Short
import Verif.Spec.Records

/-! Objects with one part of the header replaced, and objects with the data of another one, for C86 and C87. -/

namespace Nappy.Spec

variable {F : Type}

/-- The object with other first lines. Only objects of format 2160 keep the ignored lines. -/
def setTop : Obj F → Common → List Str → Obj F
  | .o1001 r, c, _ => .o1001 { r with c := c }
  | .o1010 r, c, _ => .o1010 { r with c := c }
  | .o1020 r, c, _ => .o1020 { r with c := c }
  | .o2010 r, c, _ => .o2010 { r with c := c }
  | .o2110 r, c, _ => .o2110 { r with c := c }
  | .o2160 r, c, ign => .o2160 { r with c := c, ignored := ign }
  | .o2310 r, c, _ => .o2310 { r with c := c }

/-- The section of the main variables. -/
def varPart : Obj F → VarHdr F
  | .o1001 r => r.v
  | .o1010 r => r.v
  | .o1020 r => r.v
  | .o2010 r => r.v
  | .o2110 r => r.v
  | .o2160 r => r.v
  | .o2310 r => r.v

/-- The object with another section of the main variables. -/
def setVars : Obj F → VarHdr F → Obj F
  | .o1001 r, v => .o1001 { r with v := v }
  | .o1010 r, v => .o1010 { r with v := v }
  | .o1020 r, v => .o1020 { r with v := v }
  | .o2010 r, v => .o2010 { r with v := v }
  | .o2110 r, v => .o2110 { r with v := v }
  | .o2160 r, v => .o2160 { r with v := v }
  | .o2310 r, v => .o2310 { r with v := v }

/-- The comments. -/
def comPart : Obj F → ComHdr
  | .o1001 r => r.com
  | .o1010 r => r.com
  | .o1020 r => r.com
  | .o2010 r => r.com
  | .o2110 r => r.com
  | .o2160 r => r.com
  | .o2310 r => r.com

/-- The object with other comments. -/
def setComs : Obj F → ComHdr → Obj F
  | .o1001 r, c => .o1001 { r with com := c }
  | .o1010 r, c => .o1010 { r with com := c }
  | .o1020 r, c => .o1020 { r with com := c }
  | .o2010 r, c => .o2010 { r with com := c }
  | .o2110 r, c => .o2110 { r with com := c }
  | .o2160 r, c => .o2160 { r with com := c }
  | .o2310 r, c => .o2310 { r with com := c }

/-- The section of the auxiliary variables, of one of three kinds: none for format 1001, one with texts for 2160. -/
inductive AuxPart (F : Type) where
  | no
  | nums (a : AuxHdr F)
  | texts (a : CharAuxHdr F)

/-- The section of the auxiliary variables of an object. -/
def auxPart : Obj F → AuxPart F
  | .o1001 _ => .no
  | .o1010 r => .nums r.aux
  | .o1020 r => .nums r.aux
  | .o2010 r => .nums r.aux
  | .o2110 r => .nums r.aux
  | .o2160 r => .texts r.aux
  | .o2310 r => .nums r.aux

/-- The lines are such a section. -/
def AuxPartOn (cd : Codec F) (ls : List Str) : AuxPart F → Prop
  | .no => ls = []
  | .nums a => AuxOn cd ls a
  | .texts a => CharAuxOn cd ls a

/-- The object with another section of the auxiliary variables; one of another kind changes nothing. -/
def setAux : Obj F → AuxPart F → Obj F
  | .o1010 r, .nums a => .o1010 { r with aux := a }
  | .o1020 r, .nums a => .o1020 { r with aux := a }
  | .o2010 r, .nums a => .o2010 { r with aux := a }
  | .o2110 r, .nums a => .o2110 { r with aux := a }
  | .o2310 r, .nums a => .o2310 { r with aux := a }
  | .o2160 r, .texts a => .o2160 { r with aux := a }
  | o, _ => o

/-- Two such sections are of the same kind. -/
def SameKind : AuxPart F → AuxPart F → Prop
  | .no, .no => True
  | .nums _, .nums _ => True
  | .texts _, .texts _ => True
  | _, _ => False

/-- The two objects agree in what says how many numbers there are in a record. -/
def SameShape : Obj F → Obj F → Prop
  | .o1001 r, .o1001 s => r.v.NV = s.v.NV
  | .o1010 r, .o1010 s => r.v.NV = s.v.NV ∧ r.aux.NAUXV = s.aux.NAUXV
  | .o1020 r, .o1020 s => r.v.NV = s.v.NV ∧ r.aux.NAUXV = s.aux.NAUXV ∧ r.NVPM = s.NVPM
  | .o2010 r, .o2010 s => r.v.NV = s.v.NV ∧ r.aux.NAUXV = s.aux.NAUXV ∧ r.NX = s.NX
  | .o2110 r, .o2110 s => r.v.NV = s.v.NV ∧ r.aux.NAUXV = s.aux.NAUXV
  | .o2160 r, .o2160 s => r.v.NV = s.v.NV ∧ r.aux.NAUXV = s.aux.NAUXV ∧ r.aux.NAUXC = s.aux.NAUXC
  | .o2310 r, .o2310 s => r.v.NV = s.v.NV ∧ r.aux.NAUXV = s.aux.NAUXV
  | _, _ => False

/-- The third object with the data of the second. The first argument is the second one before any data were read: what
it has of the marks of 2010 and of the steps of 2310 is left out. Objects of different formats do not occur. -/
def withData : Obj F → Obj F → Obj F → Obj F
  | .o1001 _, .o1001 a, .o1001 s => .o1001 { s with X := a.X, V := a.V }
  | .o1010 _, .o1010 a, .o1010 s => .o1010 { s with X := a.X, A := a.A, V := a.V }
  | .o1020 _, .o1020 a, .o1020 s => .o1020 { s with X := a.X, A := a.A, V := a.V }
  | .o2010 o, .o2010 a, .o2010 s => .o2010 { s with X0 := s.X0 ++ a.X0.drop o.X0.length, A := a.A, V := a.V }
  | .o2110 _, .o2110 a, .o2110 s => .o2110 { s with NX := a.NX, X := a.X, A := a.A, V := a.V }
  | .o2160 _, .o2160 a, .o2160 s => .o2160 { s with NX := a.NX, X := a.X, A := a.A, V := a.V }
  | .o2310 o, .o2310 a, .o2310 s =>
    .o2310 { s with NX := a.NX, X := a.X, A := a.A, V := a.V, DX := s.DX ++ a.DX.drop o.DX.length }
  | _, _, s => s

end Nappy.Spec
