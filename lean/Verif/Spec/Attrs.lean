import Verif.CollectDict
import Verif.Spec.Collect
import Verif.Spec.Text

/-! Specification vocabulary for the comments made of attributes. -/

namespace Nappy.Spec

variable {F : Type}

/-- The lines of a text: parts without line feeds that give the text when joined by line feeds. -/
def LinesOf (s : Str) (ls : List Str) : Prop := ls ≠ [] ∧ (∀ l ∈ ls, '\n' ∉ l) ∧ join ['\n'] ls = s

/-- How a list of comments is laid out: blank ones are left out, the others are taken apart into lines, of which the
ones that differ from the first are indented by two blanks. -/
inductive ShownAs : List Str → List Str → Prop
  | nil : ShownAs [] []
  | blank {c : Str} {t out : List Str} : Blank c → ShownAs t out → ShownAs (c :: t) out
  | text {c first : Str} {more t out : List Str} : ¬ Blank c → LinesOf c (first :: more) → ShownAs t out →
      ShownAs (c :: t) (first :: more.map (fun l => if l = first then l else ' ' :: ' ' :: l) ++ out)

/-- A text or a number. -/
def textOrNumber : PyVal F → Bool
  | .str _ | .int _ | .num _ => true
  | .list _ | .none => false

/-- The attributes that have a place of their own in a NASA Ames file. -/
def placedNames : List String :=
  ["history", "institution", "comment", "first_valid_date_of_data", "source", "title", "file_format_index",
   "no_of_nasa_ames_header_lines", "total_files_in_set", "file_number_in_set"]

/-- The attributes without a place, as lines. Values that are neither texts nor numbers are left out. -/
def otherAttrs (shw : PyVal F → Str) (globals : Dict (PyVal F)) : List Str :=
  (globals.filter (fun kv => textOrNumber kv.2 && !placedNames.contains kv.1)).map
    (fun kv => kv.1.toList ++ ":   ".toList ++ shw kv.2)

/-- The lines of the attribute `comment`, none if there is no such text. -/
def CommentIs (globals : Dict (PyVal F)) (ls : List Str) : Prop :=
  match dictGet? globals "comment" with
  | some (.str t) => LinesOf t ls
  | _ => ls = []

/-- The comment holds none of the headings that nappy writes. -/
def ForeignComment (hp : Headings) (globals : Dict (PyVal F)) : Prop :=
  ∀ t, dictGet? globals "comment" = some (.str t) →
    ∀ h ∈ [hp.sc_start, hp.sc_end, hp.nc_start, hp.nc_end, hp.data_next], ¬ Occurs h t

/-- The lines made of the attribute `history`: one on the conversion, then the old ones, indented unless they are such
a line themselves. -/
def HistoryIs (env : CollectEnv F) (globals : Dict (PyVal F)) (ls : List Str) : Prop :=
  match dictGet? globals "history" with
  | some v =>
    if textOrNumber v then
      ∃ first more, LinesOf (env.show_ v) (first :: more) ∧
        ls = ("History:  ".toList ++ env.stamp ++ " - Converted to NASA Ames format using nappy-".toList ++ env.version
          ++ ".".toList) :: ("    ".toList ++ first) ::
          more.map (fun l => if "History:".toList <+: l then l else "  ".toList ++ l)
    else ls = []
  | none => ls = []

/-- The lines for one variable: its name and its attributes. -/
def blockOf (best : Str) (v : XVar F) : List Str :=
  ("  Variable ".toList ++ v.name ++ ": ".toList ++ best) ::
    v.attrs.map (fun kv => "    ".toList ++ kv.1.toList ++ " = ".toList ++ kv.2)

/-- The lines for a list of variables. -/
def VarBlocks : List (XVar F) → List Str → Prop
  | [], ls => ls = []
  | v :: vs, ls => ∃ best rest, v.bestName = .ok best ∧ VarBlocks vs rest ∧ ls = blockOf best v ++ rest

/-- The special comments that a source without comments of nappy gives: nothing if no main variable has an
attribute; otherwise the singletons and the main variables that have attributes, between headings. -/
def SpecialText (hp : Headings) (zero main : List (XVar F)) (ls : List Str) : Prop :=
  ∃ z m, VarBlocks zero z ∧ VarBlocks (main.filter (fun v => !v.attrs.isEmpty)) m ∧
    ls = if main.all (fun v => v.attrs.isEmpty) then []
      else hp.sc_start :: (if zero.isEmpty then [] else hp.sing_start :: z ++ [hp.sing_end]) ++
        [hp.addl_vatts, hp.ncatts_start] ++ m ++ [hp.ncatts_end, hp.sc_end]

end Nappy.Spec
