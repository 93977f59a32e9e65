import Verif.Codec

/-! Python's printing and reading of numbers: the operator `%` with a `float_format` such as `%.10g` (the default,
`nappy/config/nappy.ini` line 5), `%5.2f` or `%s`, as used in `nappy/na_file/na_file.py` lines 94-104, and `float`.

This is a model of Python (`unicode_format_arg_output` and `PyOS_double_to_string` of CPython), not of nappy: it makes
the number formats that the rest of the model is parametrised by concrete. Not modelled: `%d` and the other
conversions, mapping keys and `*` as width, underscores between digits in `float`. -/

namespace Nappy

variable {F : Type}

/-- `%f`, `%e`, `%g` and `%s`. -/
inductive Conv
  | fixed | exp | general | str
  deriving DecidableEq

/-- A conversion with its flags `-+ 0#`, width and precision. `upper` is for `%F`, `%E` and `%G`. -/
structure FloatFormat where
  left : Bool
  plus : Bool
  blank : Bool
  zero : Bool
  alt : Bool
  width : Nat
  prec : Option Nat
  conv : Conv
  upper : Bool
  deriving DecidableEq

/-- Is the character a decimal digit? -/
def isDigit (c : Char) : Bool := (digitVal c).isSome

/-- The number that a list of digits stands for, after those already read. -/
def digitsVal : Nat → Str → Nat
  | acc, [] => acc
  | acc, c :: cs => digitsVal (acc * 10 + (digitVal c).getD 0) cs

/-- The conversion character, the last of the format. -/
def parseConv : Str → Option (Conv × Bool)
  | ['f'] => some (.fixed, false)
  | ['F'] => some (.fixed, true)
  | ['e'] => some (.exp, false)
  | ['E'] => some (.exp, true)
  | ['g'] => some (.general, false)
  | ['G'] => some (.general, true)
  | ['s'] => some (.str, false)
  | _ => none

/-- A format such as `%-10.3f`: flags, width, precision (zero if there is only a point), conversion. -/
def parseFormat : Str → Option FloatFormat
  | '%' :: s =>
    let flags := s.takeWhile (fun c => decide (c ∈ "-+ 0#".toList))
    let s := s.dropWhile (fun c => decide (c ∈ "-+ 0#".toList))
    let width := s.takeWhile isDigit
    let s := s.dropWhile isDigit
    let (prec, s) := (match s with
      | '.' :: t => (some (digitsVal 0 (t.takeWhile isDigit)), t.dropWhile isDigit)
      | _ => (none, s))
    (parseConv s).map fun c =>
      { left := decide ('-' ∈ flags), plus := decide ('+' ∈ flags), blank := decide (' ' ∈ flags),
        zero := decide ('0' ∈ flags), alt := decide ('#' ∈ flags), width := digitsVal 0 width, prec := prec,
        conv := c.1, upper := c.2 }
  | _ => none

/-! ### Digits -/

/-- `p` digits of a number, with zeros in front. -/
def fracDigits : Nat → Nat → Str
  | 0, _ => []
  | p + 1, r => fracDigits p (r / 10) ++ [digitChar (r % 10)]

/-- `m / 10^d` with `d` decimals. With the flag `#` there is always a point. -/
def mantissa (alt : Bool) (d m : Nat) : Str :=
  natStr (m / 10 ^ d) ++ (if d = 0 then (if alt then ['.'] else []) else '.' :: fracDigits d (m % 10 ^ d))

/-- The exponent, with at least two digits. -/
def expPart (upper : Bool) (x : Int) : Str :=
  (if upper then 'E' else 'e') :: (if x < 0 then '-' else '+') ::
    (if x.natAbs < 10 then '0' :: natStr x.natAbs else natStr x.natAbs)

/-- The whole number next to `a / b`; the even one if there are two. -/
def roundDiv (a b : Nat) : Nat :=
  if 2 * (a % b) < b then a / b
  else if b < 2 * (a % b) then a / b + 1
  else if a / b % 2 = 0 then a / b else a / b + 1

/-- `num / den` times a power of ten. -/
def scaled (k : Int) (num den : Nat) : Nat × Nat :=
  if 0 ≤ k then (num * 10 ^ k.toNat, den) else (num, den * 10 ^ (-k).toNat)

/-- The exponent of the first digit of `num / den`, which is not zero. -/
def decExp (num den : Nat) : Int :=
  let k : Int := ((natStr num).length : Int) - ((natStr den).length : Int)
  let s := scaled (-k) num den
  if s.2 ≤ s.1 then k else k - 1

/-- `num / den` rounded to `digits` digits: these, and the exponent of the first. -/
def sci (digits num den : Nat) : Nat × Int :=
  if num = 0 then (0, 0)
  else
    let x := decExp num den
    let s := scaled ((digits : Int) - 1 - x) num den
    let m := roundDiv s.1 s.2
    if m = 10 ^ digits then (10 ^ (digits - 1), x + 1) else (m, x)

/-- Zeros at the end of the decimals are dropped: number of decimals, and digits. -/
def trimZeros : Nat → Nat → Nat × Nat
  | 0, m => (0, m)
  | d + 1, m => if m % 10 = 0 then trimZeros d (m / 10) else (d + 1, m)

/-- The magnitude `num / den` printed by `%f`, `%e` or `%g`. -/
def numText (f : FloatFormat) (num den : Nat) : Str :=
  match f.conv with
  | .fixed => mantissa f.alt (f.prec.getD 6) (roundDiv (num * 10 ^ f.prec.getD 6) den)
  | .exp =>
    let s := sci (f.prec.getD 6 + 1) num den
    mantissa f.alt (f.prec.getD 6) s.1 ++ expPart f.upper s.2
  | .general =>
    let p := max 1 (f.prec.getD 6)
    let s := sci p num den
    if -4 ≤ s.2 ∧ s.2 < p then
      let dm := if f.alt then (((p : Int) - 1 - s.2).toNat, s.1) else trimZeros ((p : Int) - 1 - s.2).toNat s.1
      mantissa f.alt dm.1 dm.2
    else
      let dm := if f.alt then (p - 1, s.1) else trimZeros (p - 1) s.1
      mantissa f.alt dm.1 dm.2 ++ expPart f.upper s.2
  | .str => []

/-! ### Floats -/

/-- Numbers that are not finite. -/
inductive Special
  | nan | posInf | negInf
  deriving DecidableEq

def Special.text : Special → Str
  | .nan => "nan".toList
  | .posInf => "inf".toList
  | .negInf => "-inf".toList

/-- Floats as far as printing and reading see them: a finite float has a sign and the magnitude `num / den`; `near`
gives the float next to a decimal number, by its sign, digits and exponent; `repr` is `str(x)`. -/
structure Floats (F : Type) where
  special : F → Option Special
  neg : F → Bool
  num : F → Nat
  den : F → Nat
  repr : F → Str
  near : Bool → Nat → Int → F
  ofSpecial : Special → F
  trunc : F → Option Int
  ofInt : Int → F

/-- The sign in front of a number that is printed, and the rest. -/
def signed (f : FloatFormat) (t : Str) : Str × Str :=
  match t with
  | '-' :: r => (['-'], r)
  | _ => (if f.plus then ['+'] else if f.blank then [' '] else [], t)

/-- Filling up to the width: with blanks, or with zeros behind the sign. -/
def padTo (f : FloatFormat) (zero : Bool) (s t : Str) : Str :=
  let n := f.width - (s.length + t.length)
  if f.left then s ++ t ++ List.replicate n ' '
  else if zero then s ++ List.replicate n '0' ++ t
  else List.replicate n ' ' ++ s ++ t

/-- `float_format % x` -/
def Floats.format (fl : Floats F) (f : FloatFormat) (x : F) : Str :=
  match f.conv with
  | .str => padTo f false [] (match f.prec with | some p => (fl.repr x).take p | none => fl.repr x)
  | _ =>
    let t := (match fl.special x with
      | some s => if f.upper then s.text.map Char.toUpper else s.text
      | none => (if fl.neg x then ['-'] else []) ++ numText f (fl.num x) (fl.den x))
    padTo f f.zero (signed f t).1 (signed f t).2

/-- The exponent that `float` reads: a sign and digits. -/
def parseExp (s : Str) : Option Int :=
  match s with
  | '-' :: t => if t ≠ [] ∧ t.all isDigit then some (-(digitsVal 0 t : Int)) else none
  | '+' :: t => if t ≠ [] ∧ t.all isDigit then some (digitsVal 0 t) else none
  | t => if t ≠ [] ∧ t.all isDigit then some (digitsVal 0 t) else none

/-- The digits behind the point, if there is one, and what follows. -/
def decimals (s : Str) : Str × Str :=
  match s with
  | '.' :: t => (t.takeWhile isDigit, t.dropWhile isDigit)
  | _ => ([], s)

/-- The digits of a decimal number, with or without a point, and its exponent. -/
def parseUnsigned (s : Str) : Option (Nat × Int) :=
  let ip := s.takeWhile isDigit
  let fp := (decimals (s.dropWhile isDigit)).1
  if ip = [] ∧ fp = [] then none
  else match (decimals (s.dropWhile isDigit)).2 with
    | [] => some (digitsVal 0 (ip ++ fp), -(fp.length : Int))
    | c :: t =>
      if c = 'e' ∨ c = 'E' then (parseExp t).map (fun k => (digitsVal 0 (ip ++ fp), k - (fp.length : Int))) else none

/-- A decimal number: its sign, digits and exponent. -/
def parseDecimal (s : Str) : Option (Bool × Nat × Int) :=
  match strip s with
  | '-' :: t => (parseUnsigned t).map (fun p => (true, p))
  | '+' :: t => (parseUnsigned t).map (fun p => (false, p))
  | t => (parseUnsigned t).map (fun p => (false, p))

/-- The words for numbers that are not finite. -/
def parseSpecial (s : Str) : Option Special :=
  let t := (strip s).map Char.toLower
  if t ∈ ["nan".toList, "+nan".toList, "-nan".toList] then some .nan
  else if t ∈ ["inf".toList, "+inf".toList, "infinity".toList, "+infinity".toList] then some .posInf
  else if t ∈ ["-inf".toList, "-infinity".toList] then some .negInf
  else none

/-- `float(s)` -/
def Floats.parse (fl : Floats F) (s : Str) : Option F :=
  match parseDecimal s with
  | some p => some (fl.near p.1 p.2.1 p.2.2)
  | none => (parseSpecial s).map fl.ofSpecial

/-- The number operations of nappy for a given `float_format`. -/
def Floats.codec (fl : Floats F) (f : FloatFormat) : Codec F where
  sfmt := fl.repr
  ffmt := fl.format f
  parse := fl.parse
  trunc := fl.trunc
  ofInt := fl.ofInt

end Nappy
