import Verif.Py
import Mathlib.Data.List.Forall2

/-!
Specification vocabulary for lines of text. Nothing here refers to the model of the nappy code; only
the Python notions "white space" and "string" are used.
-/

namespace Nappy.Spec

/-- All characters are white space. -/
def Blank (s : Str) : Prop := ∀ c ∈ s, isSpace c = true

instance (s : Str) : Decidable (Blank s) := by unfold Blank; infer_instance

/-- A word: not empty, no white space inside. -/
def Word (t : Str) : Prop := t ≠ [] ∧ ∀ c ∈ t, isSpace c = false

instance (t : Str) : Decidable (Word t) := by unfold Word; infer_instance

/-- `Spells s ts`: the string `s` is the words `ts`, in this order, with white space between them and
possibly in front and behind. -/
inductive Spells : Str → List Str → Prop where
  | nil (ws : Str) : Blank ws → Spells ws []
  | last (ws t : Str) : Blank ws → Word t → Spells (ws ++ t) [t]
  | cons (ws t sep rest : Str) (ts : List Str) : Blank ws → Word t → sep ≠ [] → Blank sep →
      Spells rest ts → Spells (ws ++ t ++ sep ++ rest) (t :: ts)

/-- `BraceMatch line g`: the line is `g`, then a brace annotation at the end. `g` is not empty and has no
line feed; between the braces there is no brace and no `^`; after them only white space. -/
def BraceMatch (line g : Str) : Prop :=
  ∃ body ws, line = g ++ '{' :: (body ++ '}' :: ws) ∧ g ≠ [] ∧ '\n' ∉ g ∧
    (∀ c ∈ body, c ≠ '{' ∧ c ≠ '}' ∧ c ≠ '^') ∧ Blank ws

/-- `Bare line g`: `g` is the line without its brace annotation, if it has one. -/
def Bare (line g : Str) : Prop :=
  BraceMatch line g ∨ (g = line ∧ ∀ g', ¬ BraceMatch line g')

/-- `LineWords line ts`: without its brace annotation, the line is the words `ts`. -/
def LineWords (line : Str) (ts : List Str) : Prop := ∃ g, Bare line g ∧ Spells g ts

end Nappy.Spec
