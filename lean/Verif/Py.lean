/-
Python runtime pieces used by nappy: strings, white space, splitting, lines, integers.

Nothing here models nappy code itself. Each definition follows the documented behaviour of the
CPython function named in its comment. A Python `str` is a `List Char`.
-/

namespace Nappy

/-- A Python `str`. -/
abbrev Str := List Char

/-- Python exceptions (and one non-exception outcome) as values.

`hang` is not an exception: it is the outcome of a call that never returns. -/
inductive Err where
  /-- `ValueError` -/
  | value
  /-- `TypeError` -/
  | type
  /-- `IndexError` -/
  | index
  /-- `KeyError` -/
  | key
  /-- `AttributeError` -/
  | attribute
  /-- `UnboundLocalError` -/
  | unbound
  /-- `NameError` -/
  | name
  /-- `ZeroDivisionError` -/
  | zeroDiv
  /-- an explicit `raise Exception(...)` in the nappy code -/
  | exn
  /-- `ModuleNotFoundError` / `ImportError` -/
  | import
  /-- `EOFError` -/
  | eof
  /-- `SystemExit` -/
  | exit
  /-- the call never returns -/
  | hang
  /-- an input that the model leaves out; DESIGN.md lists these -/
  | outside
  deriving DecidableEq, Repr

/-- Result of Python code that may raise. -/
abbrev Res := Except Err

instance {ε α : Type} [DecidableEq ε] [DecidableEq α] : DecidableEq (Except ε α) := fun a b =>
  match a, b with
  | .ok x, .ok y => if h : x = y then isTrue (by rw [h]) else isFalse (by intro h'; cases h'; exact h rfl)
  | .error x, .error y => if h : x = y then isTrue (by rw [h]) else isFalse (by intro h'; cases h'; exact h rfl)
  | .ok _, .error _ => isFalse (by intro h; cases h)
  | .error _, .ok _ => isFalse (by intro h; cases h)

/-- `str.isspace` on one character; the set `\s` of `re` and of `str.split()`/`str.strip()`. -/
def isSpace (c : Char) : Bool :=
  let n := c.toNat
  (9 ≤ n && n ≤ 13) || (28 ≤ n && n ≤ 32) || n == 0x85 || n == 0xa0 || n == 0x1680 ||
  (0x2000 ≤ n && n ≤ 0x200a) || n == 0x2028 || n == 0x2029 || n == 0x202f || n == 0x205f ||
  n == 0x3000

/-- Characters at which `str.splitlines` breaks. -/
def isLineBreak (c : Char) : Bool :=
  let n := c.toNat
  (10 ≤ n && n ≤ 13) || (28 ≤ n && n ≤ 30) || n == 0x85 || n == 0x2028 || n == 0x2029

/-- `s.lstrip()` -/
def lstrip (s : Str) : Str := s.dropWhile isSpace

/-- `s.rstrip(chars)` with the set of characters given as a predicate. -/
def rstripP (p : Char → Bool) (s : Str) : Str := (s.reverse.dropWhile p).reverse

/-- `s.rstrip()` -/
def rstrip (s : Str) : Str := rstripP isSpace s

/-- `s.strip()` -/
def strip (s : Str) : Str := rstrip (lstrip s)

/-- Split at every character satisfying `p`, keeping empty fields. -/
def splitP (p : Char → Bool) : Str → List Str
  | [] => [[]]
  | c :: cs =>
    if p c then [] :: splitP p cs
    else match splitP p cs with
      | [] => [[c]]
      | h :: t => (c :: h) :: t

/-- `s.split()`: the maximal runs of non-space characters. -/
def words (s : Str) : List Str := (splitP isSpace s).filter (fun w => !w.isEmpty)

/-- `re.split(r"\s+", s)`: fields between maximal runs of white space. A leading or trailing run gives
an empty first or last field; the empty string gives one empty field. -/
def reSplitWs (s : Str) : List Str :=
  let core := words s
  let lead := s.head?.any isSpace
  let trail := s.getLast?.any isSpace
  if core.isEmpty then (if s.isEmpty then [[]] else [[], []])
  else (if lead then [[]] else []) ++ core ++ (if trail then [[]] else [])

/-- `fh.readlines()` on text with `\n` line ends, also `StringIO.readlines()`: split after each `\n`. -/
def readlines : Str → List Str
  | [] => []
  | c :: cs =>
    if c = '\n' then ['\n'] :: readlines cs
    else match readlines cs with
      | [] => [[c]]
      | h :: t => (c :: h) :: t

/-- Universal newline translation done by `open(filename)` in text mode. -/
def univNL : Str → Str
  | [] => []
  | '\r' :: '\n' :: cs => '\n' :: univNL cs
  | '\r' :: cs => '\n' :: univNL cs
  | c :: cs => c :: univNL cs

/-- The lines a file opened with `open(filename)` yields. -/
def fileLines (text : Str) : List Str := readlines (univNL text)

/-- `s.splitlines(True)` -/
def splitlinesKeep : Str → List Str
  | [] => []
  | '\r' :: '\n' :: cs => ['\r', '\n'] :: splitlinesKeep cs
  | c :: cs =>
    if isLineBreak c then [c] :: splitlinesKeep cs
    else match splitlinesKeep cs with
      | [] => [[c]]
      | h :: t => (c :: h) :: t

/-- `sep.join(items)` -/
def join (sep : Str) : List Str → Str
  | [] => []
  | [a] => a
  | a :: b :: t => a ++ sep ++ join sep (b :: t)

/-- `"".join(items)` -/
def concat (items : List Str) : Str := items.flatten

/-- Each item followed by a newline: `"%s\n" * n % tuple(items)` and similar. -/
def unlines (ls : List Str) : Str := (ls.map (fun l => l ++ ['\n'])).flatten

/-- `l[i:]` for a list and any integer `i`. -/
def sliceFrom {α : Type} (l : List α) (i : Int) : List α :=
  if 0 ≤ i then l.drop i.toNat else l.drop (l.length - (-i).toNat)

/-- `l[:i]` for a list and any integer `i`. -/
def sliceTo {α : Type} (l : List α) (i : Int) : List α :=
  if 0 ≤ i then l.take i.toNat else l.take (l.length - (-i).toNat)

/-- `l[i]` for a non-negative index. -/
def idx {α : Type} (l : List α) (i : Nat) : Res α :=
  match l[i]? with
  | some a => .ok a
  | none => .error .index

/-- The character of a decimal digit. -/
def digitChar (d : Nat) : Char := Char.ofNat (48 + d)

/-- `"%d" % n` for a natural number. -/
def natStr (n : Nat) : Str :=
  if n < 10 then [digitChar n] else natStr (n / 10) ++ [digitChar (n % 10)]
termination_by n
decreasing_by omega

/-- `"%d" % i`, also `str(i)` -/
def intStr : Int → Str
  | .ofNat n => natStr n
  | .negSucc n => '-' :: natStr (n + 1)

/-- Value of a decimal digit character. -/
def digitVal (c : Char) : Option Nat :=
  if 48 ≤ c.toNat ∧ c.toNat ≤ 57 then some (c.toNat - 48) else none

/-- Digits of an `int()` literal after the first digit: digits with single underscores between. -/
def parseDigitsAux : Nat → Str → Option Nat
  | acc, [] => some acc
  | acc, '_' :: c :: cs =>
    match digitVal c with
    | some d => parseDigitsAux (acc * 10 + d) cs
    | none => none
  | acc, c :: cs =>
    match digitVal c with
    | some d => parseDigitsAux (acc * 10 + d) cs
    | none => none

/-- An unsigned `int()` literal. Only ASCII digits; Python also takes other Unicode digits. -/
def parseNat : Str → Option Nat
  | [] => none
  | c :: cs =>
    match digitVal c with
    | some d => parseDigitsAux d cs
    | none => none

/-- `int(s)` on a string, without the error. -/
def parseInt (s : Str) : Option Int :=
  match strip s with
  | '-' :: cs => (parseNat cs).map (fun n => -(n : Int))
  | '+' :: cs => (parseNat cs).map (fun n => (n : Int))
  | cs => (parseNat cs).map (fun n => (n : Int))

/-- `int(s)` -/
def pyInt (s : Str) : Res Int :=
  match parseInt s with
  | some i => .ok i
  | none => .error .value

/-- `[f(x) for x in l]` for an `f` that may raise. -/
def mapRes {α β : Type} (f : α → Res β) : List α → Res (List β)
  | [] => .ok []
  | a :: l => do
    let b ← f a
    let bs ← mapRes f l
    .ok (b :: bs)

@[simp] theorem ok_bind {ε α β : Type} (a : α) (f : α → Except ε β) :
    ((Except.ok a : Except ε α) >>= f) = f a := rfl

@[simp] theorem error_bind {ε α β : Type} (e : ε) (f : α → Except ε β) :
    ((Except.error e : Except ε α) >>= f) = .error e := rfl

end Nappy
