import Verif.Spec.Header

/-!
Headers that end inside a list of values, for C05. As in `Spec.Header`, none of the readers are used.
-/

namespace Nappy.Spec

variable {F : Type}

/-- A list of `n` values is to come, at least one, and fewer than `n` words are left. -/
def Short (n : Int) (tail : List Str) : Prop :=
  0 < n ∧ ∃ gs, List.Forall₂ LineWords tail gs ∧ (gs.flatten.length : Int) < n

/-- The lines `H` and `tail` are the section of the main or of the auxiliary variables, and end inside the scale factors
or inside the missing values. -/
def ListsShort (cd : Codec F) (H tail : List Str) : Prop :=
  ∃ l n, IntOn l n ∧ Short n tail ∧ (H = [l] ∨ ∃ scal xs, H = l :: scal ∧ ListOn cd.float n scal xs)

/-- The same for the section of the auxiliary variables of format 2160, with the lengths of the texts and the missing
texts as two lists more. -/
def CharAuxShort (cd : Codec F) (H tail : List Str) : Prop :=
  ∃ l1 l2 more nv nc, H = l1 :: l2 :: more ∧ IntOn l1 nv ∧ IntOn l2 nc ∧ 0 < nv ∧
    ((more = [] ∧ Short (nv - nc) tail) ∨
     (∃ xs, ListOn cd.float (nv - nc) more xs ∧ Short (nv - nc) tail) ∨
     (∃ scal miss xs ys, more = scal ++ miss ∧ ListOn cd.float (nv - nc) scal xs ∧ ListOn cd.float (nv - nc) miss ys ∧
       Short nc tail) ∨
     (∃ scal miss lena xs ys zs, more = scal ++ (miss ++ lena) ∧ ListOn cd.float (nv - nc) scal xs ∧
       ListOn cd.float (nv - nc) miss ys ∧ ListOn pyInt nc lena zs ∧ Short nc tail))

/-- The bounded axes, with the given numbers of values, end inside one of them. -/
def AxesShort (cd : Codec F) (ns : List Int) (H tail : List Str) : Prop :=
  ∃ ms n more xs, ns = ms ++ n :: more ∧ AxesOn cd ms H xs ∧ Short n tail

/-- The lines between the first ones and the section of the main variables. -/
def MidOn (cd : Codec F) (ffi : Int) (ls : List Str) : Prop :=
  (ffi ∈ [1001, 1010] ∧ ∃ dx xn d x, ls = dx :: xn ∧ RowOn cd.float 1 dx d ∧ NamesOn 1 xn x) ∨
  (ffi = 1020 ∧ ∃ dx nvpm xn d n x, ls = dx :: nvpm :: xn ∧ RowOn cd.float 1 dx d ∧ IntOn nvpm n ∧ NamesOn 1 xn x) ∨
  (ffi ∈ [2010, 3010, 4010] ∧ ∃ dx nx nxdef axes xn d a b y x, ls = dx :: nx :: nxdef :: (axes ++ xn) ∧
    RowOn cd.float (ffi / 1000) dx d ∧ RowOn pyInt (ffi / 1000 - 1) nx a ∧ RowOn pyInt (ffi / 1000 - 1) nxdef b ∧
    AxesOn cd b.reverse axes y ∧ NamesOn (ffi / 1000) xn x) ∨
  (ffi = 2110 ∧ ∃ dx xn d x, ls = dx :: xn ∧ RowOn cd.float 2 dx d ∧ NamesOn 2 xn x) ∨
  (ffi = 2160 ∧ ∃ dx lenx xn d s y x, ls = dx :: lenx :: xn ∧ RowOn cd.float 1 dx d ∧ ItemOn lenx s ∧
    cd.float s = .ok y ∧ NamesOn 2 xn x) ∨
  (ffi = 2310 ∧ ∃ dx xn d x, ls = dx :: xn ∧ RowOn cd.float 1 dx d ∧ NamesOn 2 xn x)

/-- The lines `H` are the beginning of a header, up to a list of values or to the end of a line inside such a list; and
the lines `tail`, which are all that follow, hold fewer words than this list needs. -/
def HeaderShort (cd : Codec F) (k : Nat) (H tail : List Str) : Prop :=
  ∃ top c ign, TopOn k top c ign ∧
    ((c.FFI ∈ [2010, 3010, 4010] ∧ ∃ dx nx nxdef axes d a b, H = top ++ dx :: nx :: nxdef :: axes ∧
        RowOn cd.float (c.FFI / 1000) dx d ∧ RowOn pyInt (c.FFI / 1000 - 1) nx a ∧
        RowOn pyInt (c.FFI / 1000 - 1) nxdef b ∧ AxesShort cd b.reverse axes tail) ∨
     (∃ mid vs, H = top ++ (mid ++ vs) ∧ MidOn cd c.FFI mid ∧ ListsShort cd vs tail) ∨
     (∃ mid vs aux v, H = top ++ (mid ++ (vs ++ aux)) ∧ MidOn cd c.FFI mid ∧ VarsOn cd vs v ∧
        ((c.FFI ∉ [1001, 2160] ∧ ListsShort cd aux tail) ∨ (c.FFI = 2160 ∧ CharAuxShort cd aux tail))))

end Nappy.Spec
