import Verif.Open
import Verif.Spec.Text

/-!
Specification vocabulary: when a dictionary can be written. Nothing here mentions the text written, the delimiter, the
number format or annotation: only counts, lengths of lists and four texts.
-/

namespace Nappy.Spec

variable {F : Type}

/-- A text the first lines of a header can hold: not empty and not a lone quote. -/
def Sayable (s : Str) : Prop := s ≠ [] ∧ s ≠ ['\''] ∧ s ≠ ['"']

instance (s : Str) : Decidable (Sayable s) := by unfold Sayable; infer_instance

/-- As many values as a line of `n` values has, which always has room for one. -/
def OnLine {α : Type} (n : Int) (l : List α) : Prop := (l.length : Int) = max n 1

/-- As many entries as `n` lines hold. -/
def OnLines {α : Type} (n : Int) (l : List α) : Prop := (l.length : Int) = max n 0

instance {α : Type} (n : Int) (l : List α) : Decidable (OnLine n l) := by unfold OnLine; infer_instance
instance {α : Type} (n : Int) (l : List α) : Decidable (OnLines n l) := by unfold OnLines; infer_instance

/-- The common part of a header: four texts and two dates of at least three numbers. -/
def CommonFits (c : Common) : Prop :=
  (Sayable c.ONAME ∧ Sayable c.ORG ∧ Sayable c.SNAME ∧ Sayable c.MNAME) ∧ 3 ≤ c.DATE.length ∧ 3 ≤ c.RDATE.length

/-- `NV` fits the lists of the variables. -/
def VarsFit (v : VarHdr F) : Prop := OnLine v.NV v.VSCAL ∧ OnLine v.NV v.VMISS ∧ OnLines v.NV v.VNAME

/-- `NAUXV` fits the lists of the auxiliary variables; with none the lists do not matter. -/
def AuxFits (a : AuxHdr F) : Prop :=
  0 < a.NAUXV → OnLine a.NAUXV a.ASCAL ∧ OnLine a.NAUXV a.AMISS ∧ OnLines a.NAUXV a.ANAME

/-- `NSCOML` and `NNCOML` fit the comments. -/
def ComFits (c : ComHdr) : Prop := OnLines c.NSCOML c.SCOM ∧ OnLines c.NNCOML c.NCOM

/-- The part of a list in front of position `k`, which may count from the end, as `l[0:k]` has it. -/
def upTo {α : Type} (l : List α) (k : Int) : List α :=
  if 0 ≤ k then l.take k.toNat else l.take (l.length - k.natAbs)

/-- The rest of the list, `l[k:]`. -/
def beyond {α : Type} (l : List α) (k : Int) : List α := l.drop (upTo l k).length

/-- The auxiliary variables of 2160: `NAUXV - NAUXC` of numbers first, then `NAUXC` of characters. -/
def CharAuxFits (a : CharAuxHdr F) : Prop :=
  0 < a.NAUXV →
    OnLine (a.NAUXV - a.NAUXC) a.ASCAL ∧ OnLine (a.NAUXV - a.NAUXC) (upTo a.AMISS (a.NAUXV - a.NAUXC)) ∧
    OnLine a.NAUXC (beyond a.LENA (a.NAUXV - a.NAUXC)) ∧ OnLines a.NAUXC (beyond a.AMISS (a.NAUXV - a.NAUXC)) ∧
    OnLines a.NAUXV a.ANAME

/-- Each of the first `n` axes declares as many values as it holds at most. -/
def AxesFit (n : Int) (nxdef : List Int) (axes : List (List F)) : Prop :=
  ∀ i : Nat, (i : Int) < n → ∃ k x, nxdef[i]? = some k ∧ axes[i]? = some x ∧ (upTo x k).length = k.toNat

/-- The counts of the header fit the lists of the header. -/
def HeaderFilled : Obj F → Prop
  | .o1001 r => CommonFits r.c ∧ OnLines r.NIV r.DX ∧ OnLines r.NIV r.XNAME ∧ VarsFit r.v ∧ ComFits r.com
  | .o1010 r => CommonFits r.c ∧ OnLines r.NIV r.DX ∧ OnLines r.NIV r.XNAME ∧ VarsFit r.v ∧ AuxFits r.aux ∧
      ComFits r.com
  | .o1020 r => CommonFits r.c ∧ OnLines r.NIV r.DX ∧ OnLines r.NIV r.XNAME ∧ VarsFit r.v ∧ AuxFits r.aux ∧
      ComFits r.com
  | .o2010 r => CommonFits r.c ∧ OnLine r.NIV r.DX ∧ OnLine (r.NIV - 1) r.NX ∧ OnLine (r.NIV - 1) r.NXDEF ∧
      AxesFit (r.NIV - 1) r.NXDEF r.XB ∧ OnLines r.NIV r.XNAME ∧ VarsFit r.v ∧ AuxFits r.aux ∧ ComFits r.com
  | .o2110 r => CommonFits r.c ∧ OnLine r.NIV r.DX ∧ OnLines r.NIV r.XNAME ∧ VarsFit r.v ∧ AuxFits r.aux ∧
      ComFits r.com
  | .o2160 r => CommonFits r.c ∧ r.DX.length = 1 ∧ OnLines r.NIV r.XNAME ∧ VarsFit r.v ∧ CharAuxFits r.aux ∧
      ComFits r.com
  | .o2310 r => CommonFits r.c ∧ 1 ≤ r.DX.length ∧ OnLines r.NIV r.XNAME ∧ VarsFit r.v ∧ AuxFits r.aux ∧
      ComFits r.com

/-- The first `n` columns have a value at position `m`. -/
def ColumnsAt {α : Type} (n : Int) (cols : List (List α)) (m : Nat) : Prop :=
  ∀ i : Nat, (i : Int) < n → ∃ col, cols[i]? = some col ∧ m < col.length

/-- A nested list has numbers at every position within the dimensions. -/
def NumbersAt : List Int → Tree F → Prop
  | [], _ => False
  | [d], .val _ => d ≤ 0
  | [d], .lst l => ∀ i : Nat, (i : Int) < d → ∃ x, l[i]? = some (.val x)
  | d :: _ :: _, .val _ => d ≤ 0
  | d :: d2 :: ds, .lst l => ∀ i : Nat, (i : Int) < d → ∃ t, l[i]? = some t ∧ NumbersAt (d2 :: ds) t

/-- At mark `m` the count `NX[m]` is given and each of the first `n` variables has a value at each of that many
positions. -/
def RaggedAt (n : Int) (NX : List Int) (V : List (List (List F))) (m : Nat) : Prop :=
  ∃ nx, NX[m]? = some nx ∧ ∀ p : Nat, (p : Int) < nx → ∀ i : Nat, (i : Int) < n →
    ∃ vs v, V[i]? = some vs ∧ vs[m]? = some v ∧ p < v.length

/-- The axis given with mark `m` has `NX[m]` values. -/
def AxisAt {α : Type} (NX : List Int) (X : List (α × List F)) (m : Nat) : Prop :=
  ∀ nx x, NX[m]? = some nx → X[m]? = some x → nx ≤ x.2.length

/-- A column of numbers has one at position `m`. -/
def NumberIn (A : List (List (Cell F))) (a m : Nat) : Prop :=
  ∃ col x, A[a]? = some col ∧ col[m]? = some (.num x)

/-- A column, which may be counted from the end, has a value at position `m`. -/
def ValueIn (A : List (List (Cell F))) (a : Int) (m : Nat) : Prop :=
  ∃ col, (if 0 ≤ a then A[a.toNat]? else if a.natAbs ≤ A.length then A[A.length - a.natAbs]? else none) = some col ∧
    m < col.length

/-- The counts of the header fit the data: whatever they say is there is there. -/
def DataFilled : Obj F → Prop
  | .o1001 r => ∀ m < r.X.length, ColumnsAt r.v.NV r.V m
  | .o1010 r => ∀ m < r.X.length, ColumnsAt r.aux.NAUXV r.A m ∧ ColumnsAt r.v.NV r.V m
  | .o1020 r => ∀ m < r.X.length, ColumnsAt r.aux.NAUXV r.A m ∧
      ∀ p : Nat, (p : Int) < r.NVPM → ColumnsAt r.v.NV r.V (m * r.NVPM.toNat + p)
  | .o2010 r => ∀ m < r.X0.length, ColumnsAt r.aux.NAUXV r.A m ∧
      ∀ i : Nat, (i : Int) < r.v.NV → ∃ vs t, r.V[i]? = some vs ∧ vs[m]? = some t ∧ NumbersAt r.NX t
  | .o2110 r => ∀ m < r.X.length, ColumnsAt r.aux.NAUXV r.A m ∧ RaggedAt r.v.NV r.NX r.V m ∧ AxisAt r.NX r.X m
  | .o2160 r => ∀ m < r.X.length,
      (∀ a : Nat, (a : Int) < r.aux.NAUXV - r.aux.NAUXC → NumberIn r.A a m) ∧
      (∀ a : Nat, (a : Int) < r.aux.NAUXC → ValueIn r.A (r.aux.NAUXV - r.aux.NAUXC + a) m) ∧
      RaggedAt r.v.NV r.NX r.V m ∧ AxisAt r.NX r.X m
  | .o2310 r => ∀ m < r.X.length, ColumnsAt r.aux.NAUXV r.A m ∧ RaggedAt r.v.NV r.NX r.V m

/-- The four texts of the common part can be written. -/
def TextsSayable (c : Common) : Prop := Sayable c.ONAME ∧ Sayable c.ORG ∧ Sayable c.SNAME ∧ Sayable c.MNAME

/-- No surplus values were taken into the lists of the variables (see C03). -/
def NoSurplusV (v : VarHdr F) : Prop := v.VSCAL.length = v.NV ∧ v.VMISS.length = v.NV

/-- No surplus values were taken into the lists of the auxiliary variables. -/
def NoSurplusA (a : AuxHdr F) : Prop := 0 < a.NAUXV → a.ASCAL.length = a.NAUXV ∧ a.AMISS.length = a.NAUXV

/-- What an object that was read must fulfil for its file to be written again. -/
def Restorable : Obj F → Prop
  | .o1001 r => TextsSayable r.c ∧ NoSurplusV r.v
  | .o1010 r => TextsSayable r.c ∧ NoSurplusV r.v ∧ NoSurplusA r.aux
  | .o1020 r => TextsSayable r.c ∧ NoSurplusV r.v ∧ NoSurplusA r.aux
  | .o2010 r => TextsSayable r.c ∧ NoSurplusV r.v ∧ NoSurplusA r.aux ∧
      List.Forall₂ (fun (k : Int) (x : List F) => k ≤ x.length) r.NXDEF r.XB
  | .o2110 r => TextsSayable r.c ∧ NoSurplusV r.v ∧ NoSurplusA r.aux
  | .o2160 r => TextsSayable r.c ∧ NoSurplusV r.v ∧
      (0 < r.aux.NAUXV → r.aux.ASCAL.length = r.aux.NAUXV - r.aux.NAUXC ∧ r.aux.AMISS.length = r.aux.NAUXV ∧
        r.aux.LENA.length = r.aux.NAUXV) ∧
      (r.aux.NAUXV ≤ 0 → r.X = [])
  | .o2310 r => TextsSayable r.c ∧ NoSurplusV r.v ∧ NoSurplusA r.aux

end Nappy.Spec
