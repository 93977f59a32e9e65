import Verif.Spec.Dict
import Verif.Open

/-! Specification vocabulary for written files. -/

namespace Nappy.Spec

variable {F : Type}

/-- Whole lines: nothing, or text that ends with a line feed. -/
def WholeLines (s : Str) : Prop := s = [] ∨ ∃ t, s = t ++ ['\n']

/-- What stands in front of a line when annotation is on: the annotation and the delimiter. -/
def prefixOf (env : Env F) (item : String) : Str :=
  match env.ann with
  | none => []
  | some t => t item ++ env.delim

/-- A complete header: the first line gives the number of lines of the header and the format index, more
lines follow, and the last one is a whole line. -/
def CompleteHeader (env : Env F) (ffi : Int) (h : Str) : Prop :=
  ∃ rest, h = prefixOf env "NLHEAD_FFI" ++ intStr (h.count '\n') ++ env.delim ++ intStr ffi ++ ['\n']
    ++ rest ++ ['\n']

/-- Delimiter and annotation of the first line hold no line feed. -/
def CleanTop (env : Env F) : Prop :=
  '\n' ∉ env.delim ∧ ∀ t, env.ann = some t → '\n' ∉ t "NLHEAD_FFI"

/-- The lines as text: each with a line feed. -/
def asLines (ls : List Str) : Str := (ls.map (fun l => l ++ ['\n'])).flatten

/-- The dictionary with another NLHEAD value. -/
def withNLHEAD (n : Int) : Obj F → Obj F
  | .o1001 r => .o1001 { r with c := { r.c with NLHEAD := n } }
  | .o1010 r => .o1010 { r with c := { r.c with NLHEAD := n } }
  | .o1020 r => .o1020 { r with c := { r.c with NLHEAD := n } }
  | .o2010 r => .o2010 { r with c := { r.c with NLHEAD := n } }
  | .o2110 r => .o2110 { r with c := { r.c with NLHEAD := n } }
  | .o2160 r => .o2160 { r with c := { r.c with NLHEAD := n } }
  | .o2310 r => .o2310 { r with c := { r.c with NLHEAD := n } }

/-- One line of text without a line end of any kind. -/
def NoBreak (s : Str) : Prop := '\n' ∉ s ∧ '\r' ∉ s

instance (s : Str) : Decidable (NoBreak s) := by unfold NoBreak; infer_instance

/-- The dictionary as `writeData` needs it for 2010, 3010 and 4010 when no header is written: `NX` in
reversed order. Other formats need no change. -/
def forNoHeader : Obj F → Obj F
  | .o2010 r => .o2010 { r with NX := r.NX.reverse }
  | o => o

/-- The format is one of 1001, 1010, 1020. -/
def OneVar : Obj F → Prop
  | .o1001 _ => True
  | .o1010 _ => True
  | .o1020 _ => True
  | _ => False

/-- The dictionary after a successful write with a header: the lists turned round. -/
def turned : Obj F → Obj F
  | .o2010 r => .o2010 { r with DX := r.DX.reverse }
  | .o2110 r => .o2110 { r with DX := r.DX.reverse, XNAME := r.XNAME.reverse }
  | .o2160 r => .o2160 { r with DX := r.DX.reverse, XNAME := r.XNAME.reverse }
  | .o2310 r => .o2310 { r with XNAME := r.XNAME.reverse }
  | o => o

/-- A list that reads the same from both ends. -/
def Palindrome {α : Type} (l : List α) : Prop := l.reverse = l

/-- No list that a write turns round is changed by turning it. -/
def Symmetric : Obj F → Prop
  | .o2010 r => Palindrome r.DX ∧ Palindrome r.NX
  | .o2110 r => Palindrome r.DX ∧ Palindrome r.XNAME
  | .o2160 r => Palindrome r.DX ∧ Palindrome r.XNAME
  | .o2310 r => Palindrome r.XNAME
  | _ => True

/-- The same list, or the list turned round. -/
def MaybeTurned {α : Type} (l l' : List α) : Prop := l' = l ∨ l' = l.reverse

/-- The second dictionary is the first one, except that lists which a write turns round may be turned. -/
def SameButTurned : Obj F → Obj F → Prop
  | .o1001 r, .o1001 r' => r' = r
  | .o1010 r, .o1010 r' => r' = r
  | .o1020 r, .o1020 r' => r' = r
  | .o2010 r, .o2010 r' => ∃ dx nx, MaybeTurned r.DX dx ∧ MaybeTurned r.NX nx ∧
      r' = { r with DX := dx, NX := nx }
  | .o2110 r, .o2110 r' => ∃ dx xn, MaybeTurned r.DX dx ∧ MaybeTurned r.XNAME xn ∧
      r' = { r with DX := dx, XNAME := xn }
  | .o2160 r, .o2160 r' => ∃ dx xn, MaybeTurned r.DX dx ∧ MaybeTurned r.XNAME xn ∧
      r' = { r with DX := dx, XNAME := xn }
  | .o2310 r, .o2310 r' => ∃ xn, MaybeTurned r.XNAME xn ∧ r' = { r with XNAME := xn }
  | _, _ => False

/-- The effects on `k` new files of writing the same dictionary object `k` times. -/
def repeatWrites (env : Env F) (noHeader : Bool) : Nat → Obj F → List Out
  | 0, _ => []
  | k + 1, o => (o.write env noHeader).2 :: repeatWrites env noHeader k (o.write env noHeader).1

end Nappy.Spec
