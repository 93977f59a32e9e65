import Verif.Spec.ToXarray

/-! Specification vocabulary for the way from NASA Ames to variables and back. -/

namespace Nappy.Spec

variable {F : Type}

/-- The scale factors change no value. -/
def UnitScales (mul : F → F → F) (scales : List F) : Prop := ∀ s ∈ scales, ∀ x, mul x s = x

/-- No value is `NaN`. -/
def NoNaN (isNaN : F → Bool) (l : List F) : Prop := ∀ x ∈ l, isNaN x = false

/-- Some value equals itself: the list is not empty and not all values are `NaN`. -/
def HasNumber (eq : F → F → Bool) (l : List F) : Prop := ∃ x ∈ l, eq x x = true

/-- No variable has the name of an axis. -/
def NamesFree (vars : List (XVar F)) : Prop := ∀ v ∈ vars, ∀ w ∈ vars, ∀ ax ∈ w.axes, v.name ≠ ax.name

/-- The names do not vanish: those of axes are not empty, those of variables are not made of units only, and no new
name given by the caller is empty. -/
def NamesLeft (cb : UnitsCallback) (renames : Renames) (axes vars : List Str) : Prop :=
  (∀ s ∈ axes, s ≠ []) ∧ (∀ s ∈ vars, (varAndUnits cb s).1 ≠ []) ∧ ∀ kv ∈ renames, kv.2 ≠ []

/-- The attributes that the user sets in the local configuration are ones that the collector knows. -/
def LocalKnown (keys : List String) : Prop :=
  ∀ k ∈ keys, k ∈ ["history", "institution", "comment", "first_valid_date_of_data", "Conventions", "references",
    "source", "title", "file_format_index", "no_of_nasa_ames_header_lines", "total_files_in_set",
    "file_number_in_set"]

end Nappy.Spec
