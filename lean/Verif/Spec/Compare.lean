import Verif.Spec.ToXarray
import Verif.CompareNA
import Mathlib.Data.List.Forall2
import Mathlib.Algebra.Order.Field.Basic

/-! Specification vocabulary for the comparison of files. -/

namespace Nappy.Spec

variable {F : Type}

/-- `items` are the parts of `s` between the delimiters. Without a delimiter these are the words of `s`. -/
def Fields (d : Option Str) (s : Str) (items : List Str) : Prop :=
  match d with
  | none => items = words s
  | some sep => join sep items = s ∧ ∀ i ∈ items, ¬ Occurs sep i

/-- Two items have the same text, or both are numbers and these are equal. -/
def SameItem (parse : Str → Option F) (eq : F → F → Bool) (s t : Str) : Prop :=
  s = t ∨ ∃ a b, parse s = some a ∧ parse t = some b ∧ eq a b = true

/-- Two lines agree: they are the same up to blanks at the ends, or have the same items, or one of them is a single
item whose words are the items of the other. -/
def LinesAgree (same : Str → Str → Prop) (d1 d2 : Option Str) (l1 l2 : Str) : Prop :=
  strip l1 = strip l2 ∨ ∃ i1 i2, Fields d1 (strip l1) i1 ∧ Fields d2 (strip l2) i2 ∧
    (List.Forall₂ same i1 i2 ∨ (∃ a, i1 = [a] ∧ i2 = words a) ∨ (∃ a, i2 = [a] ∧ i1 = words a))

/-- The message says that the files are different. -/
def SaysDifferent : CmpMsg → Prop
  | .diff _ _ => True
  | .lengths _ _ _ => True
  | _ => False

/-- Exact arithmetic in an ordered field. -/
def fieldEnv [Field F] [LinearOrder F] (parse : Str → Option F) (tiny threshold : F) : CmpEnv F :=
  { parse := parse, eq := fun a b => decide (a = b), lt := fun a b => decide (a < b), sub := fun a b => a - b,
    div := fun a b => a / b, zero := 0, one := 1, tiny := tiny, threshold := threshold }

/-- A line of numbers: no letters, and every item is a number; `l` are the numbers. -/
def NumberLine (parse : Str → Option F) (d : Option Str) (line : Str) (l : List F) : Prop :=
  ∃ items, splitDelim d (strip line) = .ok items ∧ List.Forall₂ (fun s x => parse s = some x) items l

/-- Both above zero or both below zero, where zero counts as above. -/
def SameSign [Field F] [LinearOrder F] (a b : F) : Prop := (0 ≤ a ∧ 0 ≤ b) ∨ (a < 0 ∧ b < 0)

/-- Files that the comparison leaves out, by name. -/
def LeftOutFile (name : Str) : Prop :=
  Occurs "CSV".toList name ∨ Occurs "svn".toList name ∨ ['.'] <+: name ∨ ".pyc".toList <:+ name ∨ ['~'] <:+ name

/-- Directories that the comparison leaves out, by name. -/
def LeftOutDir (name : Str) : Prop := Occurs "CSV".toList name ∨ Occurs "svn".toList name

/-- The names on the way to a file are not among those left out. -/
def OpenPath : List Str → Prop
  | [] => True
  | [f] => ¬ LeftOutFile f
  | d :: e :: p => ¬ LeftOutDir d ∧ OpenPath (e :: p)

/-- The text is found in the file on the path. -/
inductive Reaches : FNode → List Str → Str → Prop
  | here (t : Str) : Reaches (.file t) [] t
  | entry {es : List (Str × FNode)} {n : Str} {node : FNode} {p : List Str} {t : Str} (h : (n, node) ∈ es)
      (hr : Reaches node p t) : Reaches (.dir es) (n :: p) t

/-- What is to be said about two directories: `name` and `path` are those of the first one, `es` its entries. -/
inductive DirReport : List Str → Str → List (Str × FNode) → FNode → DirMsg → Prop
  | leftOutDir {path : List Str} {name : Str} {es : List (Str × FNode)} {n2 : FNode} (hx : LeftOutDir name) :
      DirReport path name es n2 (.ignoredDir path)
  | missing {path : List Str} {name : Str} {es : List (Str × FNode)} {n2 node : FNode} {item : Str}
      (hx : ¬ LeftOutDir name) (h1 : (item, node) ∈ es) (h2 : n2.entry? item = none) :
      DirReport path name es n2 (.missing (path ++ [item]))
  | inside {path : List Str} {name : Str} {es es1 : List (Str × FNode)} {n2 node2 : FNode} {item : Str} {m : DirMsg}
      (hx : ¬ LeftOutDir name) (h1 : (item, .dir es1) ∈ es) (h2 : n2.entry? item = some node2)
      (h : DirReport (path ++ [item]) item es1 node2 m) : DirReport path name es n2 m
  | leftOutFile {path : List Str} {name : Str} {es : List (Str × FNode)} {n2 node2 : FNode} {item t : Str}
      (hx : ¬ LeftOutDir name) (h1 : (item, .file t) ∈ es) (h2 : n2.entry? item = some node2) (hf : LeftOutFile item) :
      DirReport path name es n2 (.ignoredFile (path ++ [item]))
  | line {path : List Str} {name : Str} {es : List (Str × FNode)} {n2 : FNode} {item t1 t2 a b : Str} {i : Nat}
      (hx : ¬ LeftOutDir name) (h1 : (item, .file t1) ∈ es) (h2 : n2.entry? item = some (.file t2))
      (hf : ¬ LeftOutFile item) (ha : (fileLines t1)[i]? = some a) (hb : (fileLines t2)[i]? = some b) (hne : a ≠ b) :
      DirReport path name es n2 (.diff (path ++ [item]) { number := i + 1, first := a, second := b })

/-- A file of the first directory, not left out, has the name of a directory on the other side. -/
inductive FileMeetsDir : Str → List (Str × FNode) → FNode → Prop
  | here {name : Str} {es es2 : List (Str × FNode)} {n2 : FNode} {item t : Str} (hx : ¬ LeftOutDir name)
      (h1 : (item, .file t) ∈ es) (h2 : n2.entry? item = some (.dir es2)) (hf : ¬ LeftOutFile item) :
      FileMeetsDir name es n2
  | inside {name : Str} {es es1 : List (Str × FNode)} {n2 node2 : FNode} {item : Str} (hx : ¬ LeftOutDir name)
      (h1 : (item, .dir es1) ∈ es) (h2 : n2.entry? item = some node2) (h : FileMeetsDir item es1 node2) :
      FileMeetsDir name es n2

/-- No two entries of a directory have the same name. -/
inductive Tidy : FNode → Prop
  | file (t : Str) : Tidy (.file t)
  | dir {es : List (Str × FNode)} (h : (es.map Prod.fst).Nodup) (hs : ∀ e ∈ es, Tidy e.2) : Tidy (.dir es)

/-- The same difference, seen from the other side. -/
def swapped (d : LineDiff) : LineDiff := { number := d.number, first := d.second, second := d.first }

/-- The message says that something is different or missing. -/
def ReportsDifference : DirMsg → Prop
  | .missing _ => True
  | .diff _ _ => True
  | _ => False

end Nappy.Spec

/-- What is found on a path below a file or directory. -/
def Nappy.FNode.at? : Nappy.FNode → List Nappy.Str → Option Nappy.FNode
  | n, [] => some n
  | n, m :: p => (n.entry? m).bind (fun c => c.at? p)
