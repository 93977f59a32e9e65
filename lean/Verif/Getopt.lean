import Verif.CommonUtils

/-!
Model of `getopt.getopt` of the Python standard library (3.11), as the command line tools of nappy use it. All errors
are one exception; its message is left out.
-/

namespace Nappy

/-- `optstring.startswith(p)` -/
def startsWith (p : Str) (s : Str) : Bool := p.isPrefixOf s

/-- `short_has_arg(opt, shortopts)`: the first place where the letter stands in `shortopts` (not a colon) decides. -/
def shortHasArg (c : Char) : Str → Res Bool
  | [] => .error .exn
  | x :: t => if x = c ∧ c ≠ ':' then .ok (t.head? == some ':') else shortHasArg c t

/-- `do_shorts`: the options in one argument, and the last one if it waits for its value in the next argument. -/
def doShorts (shorts : Str) : Str → Res (List (Str × Str) × Option Str)
  | [] => .ok ([], none)
  | c :: t => do
    if ← shortHasArg c shorts then
      if t = [] then .ok ([], some ['-', c]) else .ok ([(['-', c], t)], none)
    else
      let (os, w) ← doShorts shorts t
      .ok ((['-', c], []) :: os, w)

/-- `long_has_args(opt, longopts)`: whether the option has a value, and its full name. -/
def longHasArgs (opt : Str) (longs : List Str) : Res (Bool × Str) :=
  let possibilities := longs.filter (startsWith opt)
  if possibilities = [] then .error .exn
  else if possibilities.contains opt then .ok (false, opt)
  else if possibilities.contains (opt ++ ['=']) then .ok (true, opt)
  else match possibilities with
    | [m] => if m.getLast? = some '=' then .ok (true, m.dropLast) else .ok (false, m)
    | _ => .error .exn

/-- `opt[:i], opt[i+1:]` at the first `=` -/
def cutAtEq : Str → Str × Option Str
  | [] => ([], none)
  | c :: t => if c = '=' then ([], some t) else ((c :: (cutAtEq t).1), (cutAtEq t).2)

/-- `do_longs`, on the argument without its dashes. -/
def doLongs (longs : List Str) (s : Str) : Res (List (Str × Str) × Option Str) := do
  let (opt, optarg) := cutAtEq s
  let (hasArg, full) ← longHasArgs opt longs
  match hasArg, optarg with
  | true, none => .ok ([], some ('-' :: '-' :: full))
  | true, some v => .ok ([('-' :: '-' :: full, v)], none)
  | false, some _ => .error .exn
  | false, none => .ok ([('-' :: '-' :: full, [])], none)

/-- The options of one argument that begins with a dash. -/
def optionsOf (shorts : Str) (longs : List Str) (a : Str) : Res (List (Str × Str) × Option Str) :=
  if startsWith ['-', '-'] a then doLongs longs (a.drop 2) else doShorts shorts (a.drop 1)

/-- The loop of `getopt`: the options with their values and the arguments left. The next argument is the value of
`waits`, if there is one. -/
def getoptGo (shorts : Str) (longs : List Str) : Option Str → List Str → Res (List (Str × Str) × List Str)
  | none, [] => .ok ([], [])
  | some _, [] => .error .exn
  | some w, v :: rest => do
    let (more, left) ← getoptGo shorts longs none rest
    .ok ((w, v) :: more, left)
  | none, a :: rest =>
    if startsWith ['-'] a = false ∨ a = ['-'] then .ok ([], a :: rest)
    else if a = ['-', '-'] then .ok ([], rest)
    else do
      let (os, w) ← optionsOf shorts longs a
      let (more, left) ← getoptGo shorts longs w rest
      .ok (os ++ more, left)

/-- `getopt(args, shortopts, longopts)` -/
def getopt (shorts : Str) (longs : List Str) (args : List Str) : Res (List (Str × Str) × List Str) :=
  getoptGo shorts longs none args

end Nappy
