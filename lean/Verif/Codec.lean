import Verif.Py

/-!
Number formatting and parsing.

nappy prints numbers with `"%s" % x` (header items) and `float_format % x` (data), and reads them with
`float(s)` and `int(x)`. Binary floating point is not modelled: a Python `float` is an abstract type
`F`, and the four operations are the fields of `Codec`. What a proof needs from them is stated in
`Codec.Lawful`, and nothing else is assumed.
-/

namespace Nappy

/-- A printed value without the characters that have a meaning in a NASA Ames line. -/
def Token (t : Str) : Prop :=
  t ≠ [] ∧ ∀ c ∈ t, isSpace c = false ∧ c ≠ ',' ∧ c ≠ '{' ∧ c ≠ '}'

instance (t : Str) : Decidable (Token t) := by unfold Token; infer_instance

/-- The number operations nappy uses. -/
structure Codec (F : Type) where
  /-- `"%s" % x` -/
  sfmt : F → Str
  /-- `float_format % x` -/
  ffmt : F → Str
  /-- `float(s)`; `none` when it raises -/
  parse : Str → Option F
  /-- `int(x)`; `none` when it raises (not a number, infinite) -/
  trunc : F → Option Int
  /-- an `int` stored where floats are stored (`na_file_2310.py` line 75) -/
  ofInt : Int → F

/-- `float(s)` -/
def Codec.float {F : Type} (cd : Codec F) (s : Str) : Res F :=
  match cd.parse s with
  | some x => .ok x
  | none => .error .value

/-- `int(x)` for a float `x` -/
def Codec.int {F : Type} (cd : Codec F) (x : F) : Res Int :=
  match cd.trunc x with
  | some i => .ok i
  | none => .error .value

/-- What is assumed of the number operations.

`q` is the rounding that printing with `float_format` does: `float(float_format % x)`. For a format that
keeps all digits it is the identity. Padded formats such as `%10.3f` and `%-10.3f` are allowed. -/
structure Codec.Lawful {F : Type} (cd : Codec F) (q : F → F) : Prop where
  /-- `"%s" % x` is one token -/
  sfmt_token : ∀ x, Token (cd.sfmt x)
  /-- `"%s" % x` does not contain the control character U+0001 -/
  sfmt_quote : ∀ x, '\x01' ∉ cd.sfmt x
  /-- `float("%s" % x) == x` -/
  sfmt_parse : ∀ x, cd.parse (cd.sfmt x) = some x
  /-- `float_format % x` is one token, possibly padded with blanks, and reads back as `q x` -/
  ffmt_token : ∀ x, ∃ l t r, cd.ffmt x = l ++ t ++ r ∧ (∀ c ∈ l, c = ' ') ∧ (∀ c ∈ r, c = ' ') ∧
    Token t ∧ cd.parse t = some (q x)

/-- A concrete codec: exact integers printed in decimal. Shows that `Lawful` can be met, and is used
in the concrete cases beside the theorems. -/
def intCodec : Codec Int where
  sfmt := intStr
  ffmt := intStr
  parse := parseInt
  trunc := some
  ofInt := id

end Nappy
