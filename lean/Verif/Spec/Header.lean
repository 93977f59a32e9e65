import Verif.Open
import Verif.Spec.Dict
import Verif.Spec.Text

/-!
The layout of a header, line by line, for C80-C82. Only the notions of `Spec.Text`, Python's `int` (`pyInt`) and the
conversion of numbers `cd.float` are used, none of the readers.
-/

namespace Nappy.Spec

variable {F : Type}

/-- `t` is `s` without the white space at its ends. -/
def Stripped (s t : Str) : Prop := ∃ l r, s = l ++ t ++ r ∧ Blank l ∧ Blank r ∧ Trim t

/-- A text that begins with a quote and ends with the control character U+0001, which the code takes for an empty one. -/
def OddQuote (t : Str) : Prop := ∃ q m, (q = '"' ∨ q = '\'') ∧ t = q :: (m ++ ['\x01']) ∧ '\n' ∉ m

/-- The line holds the text `s`: a brace annotation and white space at the ends are left out. -/
def ItemOn (line s : Str) : Prop :=
  ∃ g t, Bare line g ∧ Stripped g t ∧ ((OddQuote t ∧ s = []) ∨ (¬ OddQuote t ∧ s = t))

/-- The line holds the name `s`. As for a text, but two annotations may follow it. -/
def NameOn (line s : Str) : Prop := ∃ t g, Stripped line t ∧ Bare t g ∧ ItemOn g s

/-- The line holds the whole number `i`. -/
def IntOn (line : Str) (i : Int) : Prop := ∃ s, ItemOn line s ∧ pyInt s = .ok i

/-- The line is a row of `n` words that are the values `xs`. -/
def RowOn {β : Type} (conv : Str → Res β) (n : Int) (line : Str) (xs : List β) : Prop :=
  ∃ ws, LineWords line ws ∧ (ws.length : Int) = n ∧ List.Forall₂ (fun w x => conv w = .ok x) ws xs

/-- The lines are a list of `n` values: there are not yet `n` on all lines but the last. What else is on the last line
is read too, unless this line alone has more than `n` (see C03). -/
def ListOn {β : Type} (conv : Str → Res β) (n : Int) (ls : List Str) (xs : List β) : Prop :=
  ∃ pre l pw lw, ls = pre ++ [l] ∧ List.Forall₂ LineWords pre pw ∧ LineWords l lw ∧
    (pw.flatten.length : Int) < n ∧ n ≤ pw.flatten.length + lw.length ∧ (lw.length : Int) ≤ n ∧
    List.Forall₂ (fun w x => conv w = .ok x) (pw.flatten ++ lw) xs

/-- The lines are `n` names. -/
def NamesOn (n : Int) (ls : List Str) (xs : List Str) : Prop := ls.length = n.toNat ∧ List.Forall₂ NameOn ls xs

/-- The first lines: `k` lines to be ignored, then NLHEAD and FFI, four names, the volume numbers and the dates. -/
def TopOn (k : Nat) (ls : List Str) (c : Common) (ignored : List Str) : Prop :=
  ∃ il l0 l1 l2 l3 l4 l5 l6 nlhead, ls = il ++ [l0, l1, l2, l3, l4, l5, l6] ∧ il.length = k ∧
    List.Forall₂ ItemOn il ignored ∧ RowOn pyInt 2 l0 [nlhead, c.FFI] ∧ c.NLHEAD = nlhead + k ∧
    ItemOn l1 c.ONAME ∧ ItemOn l2 c.ORG ∧ ItemOn l3 c.SNAME ∧ ItemOn l4 c.MNAME ∧
    RowOn pyInt 2 l5 [c.IVOL, c.NVOL] ∧ RowOn pyInt 6 l6 (c.DATE ++ c.RDATE) ∧ c.DATE.length = 3

/-- The section of the main variables: their number, scale factors, missing values and names. -/
def VarsOn (cd : Codec F) (ls : List Str) (v : VarHdr F) : Prop :=
  ∃ l scal miss names, ls = l :: (scal ++ (miss ++ names)) ∧ IntOn l v.NV ∧ ListOn cd.float v.NV scal v.VSCAL ∧
    ListOn cd.float v.NV miss v.VMISS ∧ NamesOn v.NV names v.VNAME

/-- The section of the auxiliary variables. -/
def AuxOn (cd : Codec F) (ls : List Str) (a : AuxHdr F) : Prop :=
  ∃ l more, ls = l :: more ∧ IntOn l a.NAUXV ∧
    ((0 < a.NAUXV ∧ ∃ scal miss names, more = scal ++ (miss ++ names) ∧ ListOn cd.float a.NAUXV scal a.ASCAL ∧
        ListOn cd.float a.NAUXV miss a.AMISS ∧ NamesOn a.NAUXV names a.ANAME) ∨
     (a.NAUXV ≤ 0 ∧ more = [] ∧ a.ASCAL = [] ∧ a.AMISS = [] ∧ a.ANAME = []))

/-- The section of the auxiliary variables of format 2160: there are numbers and texts of both kinds, or none. -/
def CharAuxOn (cd : Codec F) (ls : List Str) (a : CharAuxHdr F) : Prop :=
  ∃ l1 l2 more, ls = l1 :: l2 :: more ∧ IntOn l1 a.NAUXV ∧ IntOn l2 a.NAUXC ∧
    ((0 < a.NAUXV ∧ ∃ scal miss lena missc names nums texts lens,
        more = scal ++ (miss ++ (lena ++ (missc ++ names))) ∧
        ListOn cd.float (a.NAUXV - a.NAUXC) scal a.ASCAL ∧ ListOn cd.float (a.NAUXV - a.NAUXC) miss nums ∧
        ListOn pyInt a.NAUXC lena lens ∧ ListOn (fun s => .ok s) a.NAUXC missc texts ∧
        a.AMISS = nums.map .num ++ texts.map .str ∧
        a.LENA = List.replicate (a.NAUXV - a.NAUXC).toNat none ++ lens.map some ∧
        NamesOn a.NAUXV names a.ANAME) ∨
     (a.NAUXV ≤ 0 ∧ more = [] ∧ a.ASCAL = [] ∧ a.AMISS = [] ∧ a.LENA = [] ∧ a.ANAME = []))

/-- The comments, each kind with the number of its lines in front. -/
def ComsOn (ls : List Str) (c : ComHdr) : Prop :=
  ∃ l1 sc l2 nc, ls = l1 :: (sc ++ l2 :: nc) ∧ IntOn l1 c.NSCOML ∧ sc.length = c.NSCOML.toNat ∧
    List.Forall₂ Stripped sc c.SCOM ∧ IntOn l2 c.NNCOML ∧ nc.length = c.NNCOML.toNat ∧
    List.Forall₂ Stripped nc c.NCOM

/-- The bounded axes of 2010, 3010 and 4010, one after the other, with the given numbers of values. -/
def AxesOn (cd : Codec F) : List Int → List Str → List (List F) → Prop
  | [], ls, xs => ls = [] ∧ xs = []
  | n :: ns, ls, xs => ∃ l1 l2 y ys, ls = l1 ++ l2 ∧ xs = y :: ys ∧ ListOn cd.float n l1 y ∧ AxesOn cd ns l2 ys

/-- The lines `ls` are a header of the format of the object, with `k` lines to be ignored in front, and the object
holds what is on them and no data. Lists over several independent variables are in the object in the opposite order.
The values of the axes of 3010 and 4010 are expected in the numbers NXDEF gives, but in the opposite order. -/
def HeaderOn (cd : Codec F) (k : Nat) (ls : List Str) : Obj F → Prop
  | .o1001 r => r.c.FFI = 1001 ∧ r.NIV = 1 ∧ r.X = [] ∧ r.V = [] ∧
      ∃ ign top dx xn vs cs, ls = top ++ dx :: (xn ++ (vs ++ cs)) ∧ TopOn k top r.c ign ∧
        RowOn cd.float 1 dx r.DX ∧ NamesOn 1 xn r.XNAME ∧ VarsOn cd vs r.v ∧ ComsOn cs r.com
  | .o1010 r => r.c.FFI = 1010 ∧ r.NIV = 1 ∧ r.X = [] ∧ r.A = [] ∧ r.V = [] ∧
      ∃ ign top dx xn vs aux cs, ls = top ++ dx :: (xn ++ (vs ++ (aux ++ cs))) ∧ TopOn k top r.c ign ∧
        RowOn cd.float 1 dx r.DX ∧ NamesOn 1 xn r.XNAME ∧ VarsOn cd vs r.v ∧ AuxOn cd aux r.aux ∧ ComsOn cs r.com
  | .o1020 r => r.c.FFI = 1020 ∧ r.NIV = 1 ∧ r.X = [] ∧ r.A = [] ∧ r.V = [] ∧
      ∃ ign top dx nvpm xn vs aux cs, ls = top ++ dx :: nvpm :: (xn ++ (vs ++ (aux ++ cs))) ∧ TopOn k top r.c ign ∧
        RowOn cd.float 1 dx r.DX ∧ IntOn nvpm r.NVPM ∧ NamesOn 1 xn r.XNAME ∧ VarsOn cd vs r.v ∧
        AuxOn cd aux r.aux ∧ ComsOn cs r.com
  | .o2010 r => r.c.FFI ∈ [2010, 3010, 4010] ∧ r.NIV = r.c.FFI / 1000 ∧ r.X0 = [] ∧ r.A = [] ∧ r.V = [] ∧
      ∃ ign top dx nx nxdef axes xn vs aux cs,
        ls = top ++ dx :: nx :: nxdef :: (axes ++ (xn ++ (vs ++ (aux ++ cs)))) ∧ TopOn k top r.c ign ∧
        RowOn cd.float r.NIV dx r.DX.reverse ∧ RowOn pyInt (r.NIV - 1) nx r.NX.reverse ∧
        RowOn pyInt (r.NIV - 1) nxdef r.NXDEF.reverse ∧ AxesOn cd r.NXDEF axes r.XB.reverse ∧
        NamesOn r.NIV xn r.XNAME.reverse ∧ VarsOn cd vs r.v ∧ AuxOn cd aux r.aux ∧ ComsOn cs r.com
  | .o2110 r => r.c.FFI = 2110 ∧ r.NIV = 2 ∧ r.NX = [] ∧ r.X = [] ∧ r.A = [] ∧ r.V = [] ∧
      ∃ ign top dx xn vs aux cs, ls = top ++ dx :: (xn ++ (vs ++ (aux ++ cs))) ∧ TopOn k top r.c ign ∧
        RowOn cd.float 2 dx r.DX.reverse ∧ NamesOn 2 xn r.XNAME.reverse ∧ VarsOn cd vs r.v ∧
        AuxOn cd aux r.aux ∧ ComsOn cs r.com
  | .o2160 r => r.c.FFI = 2160 ∧ r.NIV = 2 ∧ r.NX = [] ∧ r.X = [] ∧ r.A = [] ∧ r.V = [] ∧
      ∃ top dx lenx s xn vs aux cs, ls = top ++ dx :: lenx :: (xn ++ (vs ++ (aux ++ cs))) ∧
        TopOn k top r.c r.ignored ∧ RowOn cd.float 1 dx r.DX ∧ ItemOn lenx s ∧ cd.float s = .ok r.LENX ∧
        NamesOn 2 xn r.XNAME.reverse ∧ VarsOn cd vs r.v ∧ CharAuxOn cd aux r.aux ∧ ComsOn cs r.com
  | .o2310 r => r.c.FFI = 2310 ∧ r.NIV = 2 ∧ r.NX = [] ∧ r.X = [] ∧ r.A = [] ∧ r.V = [] ∧
      ∃ ign top dx xn vs aux cs, ls = top ++ dx :: (xn ++ (vs ++ (aux ++ cs))) ∧ TopOn k top r.c ign ∧
        RowOn cd.float 1 dx r.DX ∧ NamesOn 2 xn r.XNAME.reverse ∧ VarsOn cd vs r.v ∧
        AuxOn cd aux r.aux ∧ ComsOn cs r.com

/-- The lines `ls` begin with `H` and go on with `rest`; or they are used up, and `H` has empty lines instead. -/
def BeginsWith (ls H rest : List Str) : Prop :=
  ls = H ++ rest ∨ (rest = [] ∧ ∃ m, H = ls ++ List.replicate m [])

end Nappy.Spec
