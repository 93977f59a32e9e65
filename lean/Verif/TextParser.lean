import Verif.Py
import Verif.Codec

/-! Model of `nappy/utils/right_strip.py` and `nappy/utils/text_parser.py`. -/

namespace Nappy

/-- Characters allowed between the braces: the class `[^{^}]` of `right_strip.py` line 22. -/
def braceBody (c : Char) : Bool := c != '{' && c != '}' && c != '^'

/-- `rightStripCurlyBraces`, `right_strip.py` lines 22-32.

The regular expression `^(.+)\{[^{^}]*\}\s*$` is matched from the right: trailing white space, `}`, body
characters, `{`, then a non-empty rest in which `.` forbids `\n`. -/
def rightStrip (line : Str) : Str :=
  match line.reverse.dropWhile isSpace with
  | '}' :: r =>
    match r.dropWhile braceBody with
    | '{' :: g => if g ≠ [] ∧ '\n' ∉ g then g.reverse else line
    | _ => line
  | _ => line

/-- `pattnNoQuotes.sub("", s)` on a stripped string, `text_parser.py` lines 22 and 30.

The pattern is the non-raw string `"^[\"'].*\1$"`, so `\1` is the character U+0001, not a back reference. -/
def noQuotes (s : Str) : Str :=
  match s with
  | [] => []
  | c :: r =>
    if (c = '"' ∨ c = '\'') ∧ r.getLast? = some '\x01' ∧ '\n' ∉ r then [] else s

/-- `readItemFromLine(line, str)`, `text_parser.py` lines 25-34. -/
def readItem (line : Str) : Str := noQuotes (strip (rightStrip line))

/-- `readItemFromLine(line, int)`, `text_parser.py` lines 25-34. -/
def readItemInt (line : Str) : Res Int := pyInt (readItem line)

/-- `readItemsFromLine(line, nitems, rttype)`, `text_parser.py` lines 36-47. The conversion `rttype` is
`conv`. -/
def readItemsFromLine {β : Type} (line : Str) (nitems : Int) (conv : Str → Res β) : Res (List β) :=
  let items := reSplitWs (strip (rightStrip line))
  if nitems ≠ 0 ∧ (items.length : Int) ≠ nitems then .error .exn
  else mapRes conv items

/-- `readItemsFromLines(lines, nitems, str)`, `text_parser.py` lines 49-59. The braces are stripped
twice: on line 53 and again inside `readItemFromLine`. `nitems` is not used by the code. -/
def readItemsFromLines (lines : List Str) : List Str :=
  lines.map (fun l => readItem (rightStrip l))

/-- The items on one line, `text_parser.py` lines 78 and 84. -/
def lineItems (line : Str) : List Str := words (strip (rightStrip line))

/-- The loop of `readItemsFromUnknownLines`, `text_parser.py` lines 75-80 (list) and 83-86 (file), and the
test of `extras` on line 88. Entered with `acc` shorter than `n`. `eof` is what happens when the lines
run out: `object[0]` on an empty list raises `IndexError`; a file keeps returning `""`, so the loop
never ends (see `unkLoop` for the unrolled loop). -/
def unkGo (eof : Err) (n : Nat) : List Str → List Str → Res (List Str × List Str)
  | [], _ => .error eof
  | l :: ls, acc =>
    let items := lineItems l
    let acc' := acc ++ items.take n
    if acc'.length < n then unkGo eof n ls acc'
    else if items.drop n ≠ [] then .error .exn
    else .ok (acc', ls)

/-- `readItemsFromUnknownLines(object, nitems, rttype)`, `text_parser.py` lines 61-97. With `nitems <= 0`
the loop body never runs and `extras` is unbound on line 88. Returns the items and the rest of the
object. -/
def readUnk {β : Type} (eof : Err) (nitems : Int) (conv : Str → Res β) (lines : List Str) :
    Res (List β × List Str) :=
  if nitems ≤ 0 then .error .unbound
  else do
    let (items, rest) ← unkGo eof nitems.toNat lines []
    let vals ← mapRes conv items
    .ok (vals, rest)

/-- The variant used on a list of data lines. -/
def readUnkList {β : Type} (nitems : Int) (conv : Str → Res β) (lines : List Str) :
    Res (List β × List Str) := readUnk .index nitems conv lines

/-- The variant used on an open file. -/
def readUnkFile {β : Type} (nitems : Int) (conv : Str → Res β) (lines : List Str) :
    Res (List β × List Str) := readUnk .hang nitems conv lines

/-- `file.readline()`: the next line, or `""` at the end of the file. -/
def readline : List Str → Str × List Str
  | [] => ([], [])
  | l :: ls => (l, ls)

/-! The file loop of `readItemsFromUnknownLines` step by step, to say what `Err.hang` stands for. -/

/-- Local variables of the loop, `text_parser.py` lines 83-86. -/
structure UnkState where
  /-- lines not yet read -/
  rest : List Str
  rtitems : List Str
  extras : Option (List Str)
  deriving DecidableEq

/-- One pass through the loop body, `text_parser.py` lines 84-86. -/
def unkBody (n : Nat) (s : UnkState) : UnkState :=
  let (line, rest) := readline s.rest
  let items := lineItems line
  { rest := rest, rtitems := s.rtitems ++ items.take n, extras := some (items.drop n) }

/-- At most `k` passes through the loop; `none` when it is still running after `k` passes. -/
def unkLoop (n : Nat) : Nat → UnkState → Option UnkState
  | 0, s => if s.rtitems.length < n then none else some s
  | k + 1, s => if s.rtitems.length < n then unkLoop n k (unkBody n s) else some s

end Nappy
