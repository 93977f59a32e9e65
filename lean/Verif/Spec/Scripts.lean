import Verif.Spec.Utils
import Verif.Scripts

/-! Specification vocabulary for the command line tools: how options can be spelt, and what the user asks for. -/

namespace Nappy.Spec

/-! ### Spellings -/

/-- Letters of options with the mark of those that take a value, as `getopt` wants them. -/
def shortText (S : List (Char × Bool)) : Str := S.flatMap (fun cb => if cb.2 then [cb.1, ':'] else [cb.1])

/-- Names of long options with the mark of those that take a value. -/
def longText (L : List (Str × Bool)) : List Str := L.map (fun nb => if nb.2 then nb.1 ++ ['='] else nb.1)

/-- Options that can be told apart. -/
structure Table (S : List (Char × Bool)) (L : List (Str × Bool)) : Prop where
  letters : (S.map Prod.fst).Nodup
  letter : ∀ cb ∈ S, cb.1 ≠ ':' ∧ cb.1 ≠ '-'
  names : (L.map Prod.fst).Nodup
  name : ∀ nb ∈ L, nb.1 ≠ [] ∧ '=' ∉ nb.1

/-- Letters of one argument: options without value, and perhaps one with its value at the end. -/
inductive Cluster (S : List (Char × Bool)) : List (Str × Str) → Str → Prop
  | last (c : Char) : (c, false) ∈ S → Cluster S [(['-', c], [])] [c]
  | flag (c : Char) (os : List (Str × Str)) (s : Str) : (c, false) ∈ S → Cluster S os s →
      Cluster S ((['-', c], []) :: os) (c :: s)
  | value (c : Char) (v : Str) : (c, true) ∈ S → v ≠ [] → Cluster S [(['-', c], v)] (c :: v)

/-- `p` is the name or a beginning of it that no other name has. -/
def Abbreviates (L : List (Str × Bool)) (p n : Str) : Prop :=
  p = n ∨ (p ≠ [] ∧ p <+: n ∧ ∀ mb ∈ L, p <+: mb.1 → mb.1 = n)

/-- The arguments spell the options with these values, in this order. -/
inductive ArgsSpell (S : List (Char × Bool)) (L : List (Str × Bool)) : List (Str × Str) → List Str → Prop
  | nil : ArgsSpell S L [] []
  | short (os os' : List (Str × Str)) (s : Str) (args : List Str) : Cluster S os s → ArgsSpell S L os' args →
      ArgsSpell S L (os ++ os') (('-' :: s) :: args)
  | shortApart (flags : List Char) (c : Char) (v : Str) (os : List (Str × Str)) (args : List Str) :
      (∀ f ∈ flags, (f, false) ∈ S) → (c, true) ∈ S → ArgsSpell S L os args →
      ArgsSpell S L (flags.map (fun f => (['-', f], [])) ++ (['-', c], v) :: os) (('-' :: (flags ++ [c])) :: v :: args)
  | flag (n p : Str) (os : List (Str × Str)) (args : List Str) : (n, false) ∈ L → Abbreviates L p n →
      ArgsSpell S L os args → ArgsSpell S L (('-' :: '-' :: n, []) :: os) (('-' :: '-' :: p) :: args)
  | long (n p v : Str) (os : List (Str × Str)) (args : List Str) : (n, true) ∈ L → Abbreviates L p n →
      ArgsSpell S L os args → ArgsSpell S L (('-' :: '-' :: n, v) :: os) (('-' :: '-' :: (p ++ '=' :: v)) :: args)
  | longApart (n p v : Str) (os : List (Str × Str)) (args : List Str) : (n, true) ∈ L → Abbreviates L p n →
      ArgsSpell S L os args → ArgsSpell S L (('-' :: '-' :: n, v) :: os) (('-' :: '-' :: p) :: v :: args)

/-- Arguments that are not options: the first does not begin with a dash, is just a dash, or is the mark `--` that ends
the options. -/
def Positional : List Str → Prop
  | [] => True
  | a :: _ => a.head? ≠ some '-' ∨ a = ['-'] ∨ a = ['-', '-']

/-- The arguments that are left, without the mark. -/
def withoutMark : List Str → List Str
  | ['-', '-'] :: rest => rest
  | rest => rest

/-- The last thing of a kind that is given. -/
def lastOf {α β : Type} (f : α → Option β) (l : List α) : Option β := (l.filterMap f).getLast?

/-! ### nc2na and nc2csv -/

/-- The options in the usage text of `nc2na`. -/
inductive NcOpt where
  | input (file : Str)
  | output (file : Str)
  | vars (ids : List Str)
  | ffi (n : Int)
  | floatFormat (f : Str)
  | delimiter (d : Str)
  | rows (n : Int)
  | exclude (ids : List Str)
  | overwrite (pairs : List (Str × Str))
  | namesOnly
  | noHeader
  | annotated
  deriving DecidableEq

/-- How the option is called. -/
def NcOpt.called : NcOpt → Str
  | .input _ => "-i".toList
  | .output _ => "-o".toList
  | .vars _ => "-v".toList
  | .ffi _ => "--ffi".toList
  | .floatFormat _ => "-f".toList
  | .delimiter _ => "-d".toList
  | .rows _ => "-l".toList
  | .exclude _ => "-e".toList
  | .overwrite _ => "--overwrite-metadata".toList
  | .namesOnly => "--names-only".toList
  | .noHeader => "--no-header".toList
  | .annotated => "--annotated".toList

/-- Items separated by commas. -/
def CommaList (l : List Str) (v : Str) : Prop := l ≠ [] ∧ (∀ s ∈ l, ',' ∉ s) ∧ v = join [','] l

/-- Pairs separated by commas. -/
def CommaPairs (l : List (Str × Str)) (v : Str) : Prop :=
  l ≠ [] ∧ (∀ p ∈ l, ',' ∉ p.1 ∧ ',' ∉ p.2) ∧ v = commaText l

/-- The text that gives the value. -/
def NcOpt.Value : NcOpt → Str → Prop
  | .input f, v | .output f, v | .floatFormat f, v | .delimiter f, v => v = f
  | .vars l, v | .exclude l, v => CommaList l v
  | .ffi n, v | .rows n, v => pyInt v = .ok n
  | .overwrite l, v => CommaPairs l v
  | .namesOnly, v | .noHeader, v | .annotated, v => v = []

def ncShortTable : List (Char × Bool) :=
  [('i', true), ('o', true), ('v', true), ('f', true), ('d', true), ('l', true), ('e', true)]

def ncLongTable : List (Str × Bool) :=
  [("ffi".toList, true), ("overwrite-metadata".toList, true), ("names-only".toList, false),
    ("no-header".toList, false), ("annotated".toList, false)]

/-- The arguments spell these options. -/
def NcSpells (given : List NcOpt) (args : List Str) : Prop :=
  ∃ os, List.Forall₂ (fun (g : NcOpt) (o : Str × Str) => o.1 = g.called ∧ g.Value o.2) given os ∧
    ArgsSpell ncShortTable ncLongTable os args

def NcOpt.input? : NcOpt → Option Str | .input f => some f | _ => none
def NcOpt.output? : NcOpt → Option Str | .output f => some f | _ => none
def NcOpt.vars? : NcOpt → Option (List Str) | .vars l => some l | _ => none
def NcOpt.ffi? : NcOpt → Option Int | .ffi n => some n | _ => none
def NcOpt.floatFormat? : NcOpt → Option Str | .floatFormat f => some f | _ => none
def NcOpt.delimiter? : NcOpt → Option Str | .delimiter d => some d | _ => none
def NcOpt.rows? : NcOpt → Option Int | .rows n => some n | _ => none
def NcOpt.exclude? : NcOpt → Option (List Str) | .exclude l => some l | _ => none
def NcOpt.overwrite? : NcOpt → Option (List (Str × Str)) | .overwrite l => some l | _ => none

/-! ### na2nc -/

/-- The options in the usage text of `na2nc`, and `-v` and `-a`, which are declared as well. -/
inductive NaOpt where
  | input (file : Str)
  | output (file : Str)
  | mode (m : Str)
  | vars (ids : List Str)
  | auxVars (ids : List Str)
  | atts (pairs : List (Str × Str))
  | rename (pairs : List (Str × Str))
  | timeUnits (t : Str)
  | quiet
  deriving DecidableEq

def NaOpt.called : NaOpt → Str
  | .input _ => "-i".toList
  | .output _ => "-o".toList
  | .mode _ => "-m".toList
  | .vars _ => "-v".toList
  | .auxVars _ => "-a".toList
  | .atts _ => "-g".toList
  | .rename _ => "-r".toList
  | .timeUnits _ => "-t".toList
  | .quiet => "-n".toList

def NaOpt.Value : NaOpt → Str → Prop
  | .input f, v | .output f, v | .mode f, v | .timeUnits f, v => v = f
  | .vars l, v | .auxVars l, v => CommaList l v
  | .atts l, v | .rename l, v => CommaPairs l v
  | .quiet, v => v = []

def na2ncShortTable : List (Char × Bool) :=
  [('i', true), ('o', true), ('m', true), ('v', true), ('a', true), ('g', true), ('t', true), ('n', false),
    ('r', true)]

def NaSpells (given : List NaOpt) (args : List Str) : Prop :=
  ∃ os, List.Forall₂ (fun (g : NaOpt) (o : Str × Str) => o.1 = g.called ∧ g.Value o.2) given os ∧
    ArgsSpell na2ncShortTable [] os args

def NaOpt.input? : NaOpt → Option Str | .input f => some f | _ => none
def NaOpt.output? : NaOpt → Option Str | .output f => some f | _ => none
def NaOpt.mode? : NaOpt → Option Str | .mode f => some f | _ => none
def NaOpt.atts? : NaOpt → Option (List (Str × Str)) | .atts l => some l | _ => none
def NaOpt.rename? : NaOpt → Option (List (Str × Str)) | .rename l => some l | _ => none
def NaOpt.timeUnits? : NaOpt → Option Str | .timeUnits t => some t | _ => none

/-- The option is one that `na2nc` takes. -/
def NaOpt.Implemented : NaOpt → Prop
  | .vars _ | .auxVars _ => False
  | _ => True

end Nappy.Spec
