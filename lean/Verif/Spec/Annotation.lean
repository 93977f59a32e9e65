import Verif.Spec.File

/-! Specification vocabulary for annotated output. -/

namespace Nappy.Spec

variable {F : Type}

/-- The same write call with another annotation table (`none`: annotation off). -/
def withAnn (env : Env F) (a : Option (String → Str)) : Env F := { env with ann := a }

/-- A text that can stand in front of a line: the annotation of an item, perhaps a number, the delimiter. -/
def IsMark (t : String → Str) (delim m : Str) : Prop :=
  ∃ item, m = t item ++ delim ∨ ∃ k : Nat, m = t item ++ ' ' :: natStr k ++ delim

/-- The annotations are single lines. -/
def CleanTable (t : String → Str) : Prop := ∀ item, '\n' ∉ t item

/-- The second text is the first with marks put in. -/
def MarksAdded (t : String → Str) (delim : Str) (plain annotated : Str) : Prop :=
  ∃ pieces : List (Str × Str), (∀ p ∈ pieces, IsMark t delim p.1) ∧
    plain = (pieces.map (fun p => p.2)).flatten ∧ annotated = (pieces.map (fun p => p.1 ++ p.2)).flatten

/-- The lines of the two texts correspond one to one, and every line of the second is a mark followed by
the line of the first. -/
def LineByLine (t : String → Str) (delim : Str) (plain annotated : List Str) : Prop :=
  List.Forall₂ (fun p a => ∃ m, IsMark t delim m ∧ a = m ++ p) plain annotated

/-- A text without any character at which `str.splitlines` breaks. -/
def Unbroken (s : Str) : Prop := ∀ c ∈ s, isLineBreak c = false

instance (s : Str) : Decidable (Unbroken s) := by unfold Unbroken; infer_instance

/-- Strings of the header that all formats have. -/
def commonTexts (c : Common) (xname : List Str) (v : VarHdr F) (com : ComHdr) : List Str :=
  [c.ONAME, c.ORG, c.SNAME, c.MNAME] ++ xname ++ v.VNAME ++ com.SCOM ++ com.NCOM

/-- The strings in cells. -/
def cellTexts (l : List (Cell F)) : List Str :=
  l.filterMap (fun c => match c with | .num _ => none | .str s => some s)

/-- All strings of a dictionary (without the ignored lines). -/
def texts : Obj F → List Str
  | .o1001 r => commonTexts r.c r.XNAME r.v r.com
  | .o1010 r => commonTexts r.c r.XNAME r.v r.com ++ r.aux.ANAME
  | .o1020 r => commonTexts r.c r.XNAME r.v r.com ++ r.aux.ANAME
  | .o2010 r => commonTexts r.c r.XNAME r.v r.com ++ r.aux.ANAME
  | .o2110 r => commonTexts r.c r.XNAME r.v r.com ++ r.aux.ANAME
  | .o2310 r => commonTexts r.c r.XNAME r.v r.com ++ r.aux.ANAME
  | .o2160 r => commonTexts r.c r.XNAME r.v r.com ++ r.aux.ANAME ++ cellTexts r.aux.AMISS
      ++ r.X.map (fun x => x.1) ++ (r.A.map cellTexts).flatten

/-- No header line is missing: 1020 has one axis name, and every axis in a 2010 header has a value. -/
def LinesFilled : Obj F → Prop
  | .o1020 r => r.XNAME.length = 1
  | .o2010 r => ∀ n ∈ r.NXDEF, 1 ≤ n
  | _ => True

end Nappy.Spec
