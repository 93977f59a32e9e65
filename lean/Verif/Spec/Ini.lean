import Verif.Ini
import Verif.Spec.Dict
import Verif.Spec.File
import Verif.Spec.Text

/-! Specification vocabulary for configuration files: how a file is laid out, and what its values stand for. -/

namespace Nappy.Spec

/-- A line that says nothing: blank or a comment. -/
inductive Filler : Str → Prop
  | blank (l : Str) : Blank l → Filler l
  | comment (w : Str) (c : Char) (r : Str) : Blank w → c = '#' ∨ c = ';' → Filler (w ++ c :: r)

/-- A name that an option may have. -/
structure OptionName (k : Str) : Prop where
  trim : Trim k
  start : ∃ c t, k = c :: t ∧ c ≠ '#' ∧ c ≠ ';' ∧ c ≠ '['
  plain : '=' ∉ k ∧ ':' ∉ k

/-- A further line of a value. -/
structure Piece (p : Str) : Prop where
  trim : Trim p
  start : ∃ c t, p = c :: t ∧ c ≠ '#' ∧ c ≠ ';'

/-- Further lines of a value with what they add to it: indented lines add their text, blank lines an empty line, and
comments nothing. -/
inductive ValueLines : List Str → List Str → Prop
  | nil : ValueLines [] []
  | piece (p w w' : Str) (ps ls : List Str) : Piece p → Blank w → w ≠ [] → Blank w' → ValueLines ps ls →
      ValueLines (p :: ps) ((w ++ p ++ w') :: ls)
  | blank (l : Str) (ps ls : List Str) : Blank l → ValueLines ps ls → ValueLines ([] :: ps) (l :: ls)
  | comment (w : Str) (c : Char) (r : Str) (ps ls : List Str) : Blank w → c = '#' ∨ c = ';' → ValueLines ps ls →
      ValueLines ps ((w ++ c :: r) :: ls)

/-- The lines of an option: name, `=` or `:`, value, with any white space around them; then further lines of the value,
the last of which is not empty; then lines that say nothing. -/
inductive OptionLines : Str × Str → List Str → Prop
  | mk (k w1 w2 v w3 : Str) (d : Char) (pieces conts fillers : List Str) : OptionName k → Blank w1 → Blank w2 → Blank w3 →
      d = '=' ∨ d = ':' → Trim v → ValueLines pieces conts → pieces.getLast? ≠ some [] → (∀ l ∈ fillers, Filler l) →
      OptionLines (k, join ['\n'] (v :: pieces)) ((k ++ w1 ++ d :: (w2 ++ v ++ w3)) :: (conts ++ fillers))

/-- The lines of a section. -/
inductive SectionLines : Str × List (Str × Str) → List Str → Prop
  | mk (name w : Str) (items : List (Str × Str)) (fillers : List Str) (blocks : List (List Str)) : name ≠ [] → Blank w →
      (∀ l ∈ fillers, Filler l) → List.Forall₂ OptionLines items blocks → (items.map Prod.fst).Nodup →
      SectionLines (name, items) (('[' :: (name ++ ']' :: w)) :: (fillers ++ blocks.flatten))

/-- The text of a configuration file with these sections. -/
inductive IniText : Parsed → Str → Prop
  | mk (cfg : Parsed) (fillers : List Str) (blocks : List (List Str)) : (∀ l ∈ fillers, Filler l) →
      List.Forall₂ SectionLines cfg blocks → (cfg.map Prod.fst).Nodup → "DEFAULT".toList ∉ cfg.map Prod.fst →
      (∀ l ∈ fillers ++ blocks.flatten, NoBreak l) → IniText cfg (asLines (fillers ++ blocks.flatten))

/-- What a text stands for: several texts if it holds `&`. -/
inductive Means : Str → Nappy.Word → Prop
  | one (s : Str) : '&' ∉ s → Means s (.one s)
  | many (l : List Str) : 2 ≤ l.length → (∀ s ∈ l, '&' ∉ s) → Means (join ['&'] l) (.many l)

/-- The text with every `__space__`, from left to right, turned into a blank. -/
inductive SpacedBy : Str → Str → Prop
  | done (s : Str) : ¬ "__space__".toList <:+: s → SpacedBy s s
  | next (a s t : Str) : ¬ "__space__".toList <:+: a ++ "__space_".toList → SpacedBy s t →
      SpacedBy (a ++ "__space__".toList ++ s) (a ++ ' ' :: t)

/-- The dictionary that a file with these sections stands for: the sections and options in the order of the file. -/
def DictFor (cfg : Parsed) (d : List (Str × Section)) : Prop :=
  List.Forall₂ (fun so se => se.1 = so.1 ∧
    List.Forall₂ (fun kv ke => Means kv.1 ke.1 ∧ ∃ t, SpacedBy kv.2 t ∧ Means t ke.2) so.2 se.2) cfg d

/-- The file that holds the annotations or the local attributes: the one that the environment names, or else the one that
section `main` of the configuration names, in the directory of the configuration. -/
inductive NamedFile (cfg : Parsed) (inBase : Str → Str) (item : Str) : Option Str → Str → Prop
  | env (f : Str) : f ≠ [] → NamedFile cfg inBase item (some f) f
  | main (env : Option Str) (items : List (Str × Str)) (v t : Str) : env = none ∨ env = some [] →
      ("main".toList, items) ∈ cfg → (item, v) ∈ items → SpacedBy v t → '&' ∉ t → NamedFile cfg inBase item env (inBase t)

/-- The state of the process after some operations. -/
def afterOps (fs : CfgFiles) (s : CfgState) (ops : List CfgOp) : CfgState := ops.foldl (fun s op => (cfgStep fs s op).1) s

end Nappy.Spec
