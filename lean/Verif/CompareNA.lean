import Verif.CollectDict

/-! Model of `nappy/utils/compare_na.py` and `nappy/utils/compare.py`.

Simplifications. File and directory names hold no line feed. What was printed before an exception is left out. The
text of a message is represented by its kind and the values in it. -/

namespace Nappy

variable {F : Type}

/-- `float(s)` and the operations on numbers that the comparison uses. `eq` is `==`, `tiny` is `0.000000001`,
`threshold` is `equality_threshold`, `compare_na.py` line 44. -/
structure CmpEnv (F : Type) where
  parse : Str → Option F
  eq : F → F → Bool
  lt : F → F → Bool
  sub : F → F → F
  div : F → F → F
  zero : F
  one : F
  tiny : F
  threshold : F

/-- The arguments of `compNAFiles`, `compare_na.py` lines 147-148. -/
structure CmpOpts where
  header : Bool
  body : Bool
  clever : Bool
  approx : Bool
  d1 : Option Str
  d2 : Option Str

/-- `s.split(sep)` for a `sep` that is not empty: `k` characters are still to be skipped. -/
def splitSubGo (sep : Str) : Nat → Str → List Str
  | _, [] => [[]]
  | k + 1, _ :: cs => splitSubGo sep k cs
  | 0, c :: cs =>
    if sep.isPrefixOf (c :: cs) then [] :: splitSubGo sep (sep.length - 1) cs
    else match splitSubGo sep 0 cs with
      | [] => [[c]]
      | h :: t => (c :: h) :: t

/-- `s.split(delimiter)` where the delimiter may be `None` -/
def splitDelim (d : Option Str) (s : Str) : Res (List Str) :=
  match d with
  | none => .ok (words s)
  | some [] => .error .value
  | some (c :: cs) => .ok (splitSubGo (c :: cs) 0 s)

/-- `[a-zA-Z]`, `compare_na.py` line 47. -/
def isLetter (c : Char) : Bool := ('a' ≤ c && c ≤ 'z') || ('A' ≤ c && c ≤ 'Z')

/-- `if a == 0: a = 0.000000001`, `compare_na.py` lines 126-127. -/
def CmpEnv.nudge (env : CmpEnv F) (a : F) : F := if env.eq a env.zero then env.tiny else a

/-- The test of lines 126-131. -/
def CmpEnv.tooFar (env : CmpEnv F) (a b : F) : Bool :=
  let q := env.div (env.nudge a) (env.nudge b)
  let q := if env.lt q env.one then env.div (env.nudge b) (env.nudge a) else q
  env.lt env.threshold (env.sub env.one q)

/-- One turn of the loop over the items, `compare_na.py` lines 114-136: the items are different. Texts cannot be
divided. -/
def itemDiffers (env : CmpEnv F) (approx : Bool) (s t : Str) : Res Bool :=
  match env.parse s, env.parse t with
  | some a, some b =>
    if env.eq a b then .ok false
    else if approx then .ok (env.tooFar a b)
    else .ok true
  | _, _ =>
    if s = t then .ok false
    else if approx then .error .type
    else .ok true

/-- The loop, lines 114-136, which stops at the first difference. The lists have the same length. -/
def itemsDiffer (env : CmpEnv F) (approx : Bool) : List Str → List Str → Res Bool
  | s :: ss, t :: ts => do
    let d ← itemDiffers env approx s t
    if d then .ok true else itemsDiffer env approx ss ts
  | _, _ => .ok false

/-- A list of one item, which is `l` when split at blanks, lines 103 and 105. -/
def oneItemOf (items l : List Str) : Bool :=
  match items with
  | [a] => words a == l
  | _ => false

/-- One turn of the loop over the lines, `compare_na.py` lines 84-136: the lines are different. -/
def lineDiffers (env : CmpEnv F) (o : CmpOpts) (l1 l2 : Str) : Res Bool :=
  let a := strip l1
  let b := strip l2
  if a.any isLetter && a == b then .ok false
  else do
    let i1 ← splitDelim o.d1 a
    let i2 ← splitDelim o.d2 b
    if i1.length != i2.length then .ok (!(oneItemOf i1 i2 || oneItemOf i2 i1))
    else if !o.clever then .ok (i1 != i2)
    else itemsDiffer env o.approx i1 i2

/-- What is printed for two lines that differ, `compare_na.py` lines 140-142. The number counts from 1. -/
structure LineDiff where
  number : Nat
  first : Str
  second : Str
  deriving DecidableEq

/-- The loop over the lines, `compare_na.py` lines 84-142. -/
def sectionsGo (env : CmpEnv F) (o : CmpOpts) : Nat → List Str → List Str → Res (List LineDiff)
  | i, l1 :: t1, l2 :: t2 => do
    let d ← lineDiffers env o l1 l2
    let rest ← sectionsGo env o (i + 1) t1 t2
    .ok (if d then { number := i + 1, first := strip l1, second := strip l2 } :: rest else rest)
  | _, _, _ => .ok []

/-- `compareSections`, `compare_na.py` lines 73-144: the differences printed. The value returned tells whether
there are none. -/
def compareSections (env : CmpEnv F) (o : CmpOpts) (l1 l2 : List Str) : Res (List LineDiff) :=
  sectionsGo env o 0 l1 l2

/-- What `compNAFiles` prints, `compare_na.py` lines 160-205. -/
inductive CmpMsg where
  | ignored
  | diff (inBody : Bool) (d : LineDiff)
  | identical (inBody : Bool)
  | lengths (inBody : Bool) (n1 n2 : Nat)
  deriving DecidableEq

/-- The patterns of `compare_na.py` line 45, for a name without a line feed. -/
def excludedFile (name : Str) : Bool :=
  hasSub "CSV".toList name || hasSub "svn".toList name || name.head? == some '.' ||
    ".pyc".toList.isSuffixOf name || ['~'].isSuffixOf name

/-- `int(l[0].split(delimiter)[0])`, `compare_na.py` lines 178-179. -/
def headLength (d : Option Str) (l : List Str) : Res Int := do
  let first ← idx l 0
  let items ← splitDelim d first
  let n ← idx items 0
  pyInt n

/-- What is printed for a section, `compare_na.py` lines 187-195 and 197-205. -/
def sectionMsgs (inBody : Bool) (ds : List LineDiff) (n1 n2 : Nat) : List CmpMsg :=
  ds.map (.diff inBody) ++ (if ds = [] then [.identical inBody] else []) ++
    (if n1 ≠ n2 then [.lengths inBody n1 n2] else [])

/-- One section: the value of `same` and what is printed. -/
def compareSection (env : CmpEnv F) (o : CmpOpts) (wanted inBody : Bool) (l1 l2 : List Str) (same : Bool) :
    Res (Bool × List CmpMsg) :=
  if wanted then do
    let ds ← compareSections env o l1 l2
    .ok (ds.isEmpty, sectionMsgs inBody ds l1.length l2.length)
  else .ok (same, [])

/-- `compNAFiles`, `compare_na.py` lines 147-207. `name` is the last part of the first file name, `f1` and `f2` the
texts of the files, `none` for a file that does not exist. The value is `None` for a file name that is excluded. -/
def compNAFiles (env : CmpEnv F) (o : CmpOpts) (name : Str) (f1 f2 : Option Str) :
    Res (Option Bool × List CmpMsg) :=
  if excludedFile name then .ok (none, [.ignored])
  else match f1, f2 with
    | some t1, some t2 => do
      let n1 ← headLength o.d1 (fileLines t1)
      let n2 ← headLength o.d2 (fileLines t2)
      let h ← compareSection env o o.header false (sliceTo (fileLines t1) n1) (sliceTo (fileLines t2) n2) true
      let b ← compareSection env o o.body true (sliceFrom (fileLines t1) n1) (sliceFrom (fileLines t2) n2) h.1
      .ok (some b.1, h.2 ++ b.2)
    | _, _ => .error .exit

/-! ### compare.py -/

/-- A file with its text or a directory with its entries. -/
inductive FNode where
  | file (text : Str)
  | dir (entries : List (Str × FNode))

/-- The entry of a directory. A file has none. -/
def FNode.entry? : FNode → Str → Option FNode
  | .file _, _ => none
  | .dir es, n => (es.find? (fun e => e.1 == n)).map Prod.snd

/-- The patterns of `compare.py` line 27. -/
def excludedDir (name : Str) : Bool := hasSub "CSV".toList name || hasSub "svn".toList name

/-- What `compare.py` prints about the item at a path. -/
inductive DirMsg where
  | ignoredFile (path : List Str)
  | ignoredDir (path : List Str)
  | missing (path : List Str)
  | diff (path : List Str) (d : LineDiff)
  deriving DecidableEq

/-- The loop of `compFiles`, `compare.py` lines 112-116. -/
def rawDiffs : Nat → List Str → List Str → List LineDiff
  | i, a :: as, b :: bs =>
    if a != b then { number := i + 1, first := a, second := b } :: rawDiffs (i + 1) as bs else rawDiffs (i + 1) as bs
  | _, _, _ => []

/-- `compFiles`, `compare.py` lines 83-116, for a first file that exists. -/
def compFiles (path : List Str) (name : Str) (t1 : Str) (n2 : Option FNode) : Res (List DirMsg) :=
  if excludedFile name then .ok [.ignoredFile path]
  else match n2 with
    | some (.file t2) => .ok ((rawDiffs 0 (fileLines t1) (fileLines t2)).map (.diff path))
    | _ => .error .exit

mutual
/-- `compDirs`, `compare.py` lines 53-80, for a first directory that exists. `name` is the last part of its name,
`path` the way from the top. -/
def compDirs (path : List Str) (name : Str) (es : List (Str × FNode)) (n2 : FNode) : Res (List DirMsg) :=
  if excludedDir name then .ok [.ignoredDir path]
  else compEntries path n2 es

/-- The loop of `compDirs`, `compare.py` lines 67-80. -/
def compEntries (path : List Str) (n2 : FNode) : List (Str × FNode) → Res (List DirMsg)
  | [] => .ok []
  | (item, node) :: es =>
    match n2.entry? item with
    | none => do
      let rest ← compEntries path n2 es
      .ok (.missing (path ++ [item]) :: rest)
    | some node2 => do
      let here ← (match node with
        | .dir es1 => compDirs (path ++ [item]) item es1 node2
        | .file t1 => compFiles (path ++ [item]) item t1 (some node2))
      let rest ← compEntries path n2 es
      .ok (here ++ rest)
end

/-- `compareNA`, `compare_na.py` lines 57-70. `apply` is not a name of Python 3. A second directory that does not exist
has no entries. -/
def compareNA (name1 : Str) (i1 i2 : Option FNode) : Res (List DirMsg) :=
  match i1 with
  | some (.file _) => .error .name
  | some (.dir es) => compDirs [] name1 es (i2.getD (.dir []))
  | none => .error .exit

/-- `compare`, `compare.py` lines 38-50. `name1` is the last part of the first name. -/
def compareItems (name1 : Str) (i1 i2 : Option FNode) : Res (List DirMsg) :=
  match i1 with
  | some (.file t1) => compFiles [] name1 t1 i2
  | some (.dir es) => compDirs [] name1 es (i2.getD (.dir []))
  | none => .error .exit

/-- `compare.py` started as a program, lines 119-125. `look` gives what a name stands for. -/
def compareProgram (look : Str → Option FNode) (args : List Str) : Res (List DirMsg) :=
  match args with
  | [a, b] => compareItems (((splitP (· == '/') a).getLast?).getD []) (look a) (look b)
  | _ => .error .exit

end Nappy
