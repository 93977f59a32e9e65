import Verif.NamesArg
import Verif.Props.Select

/-! Property C113: one name instead of a list of names. -/

namespace Nappy.Props

open Nappy Spec

variable {F : Type}

theorem asked_read {nc : NCFile F} {ids : Option (List Str)} {ex : List Str} {v : XVar F} (h : Asked nc ids ex v) :
    singleValue v ∈ readXarrayFile nc.vars ids ex :=
  List.mem_map.2 ⟨v, List.mem_filter.2 ⟨h.1, (takesVar_iff nc ids ex v h.1).2 h⟩, rfl⟩

/-- C113. One name as `var_ids` asks for the variables of exactly this name, not for those whose names are parts of it. -/
theorem C113_ids (nc : NCFile F) (s : Str) (ex : List Str) :
    (∀ w ∈ readXarrayFile nc.vars (NamesArg.one s).ids ex, w.name = s) ∧
      ∀ v ∈ nc.vars, v.name = s → (∀ e ∈ ex, ¬ Alike v.name e) → (∀ w ∈ nc.vars, dictGet? w.attrs "bounds" ≠ some v.name) →
        ∃ w ∈ readXarrayFile nc.vars (NamesArg.one s).ids ex, UsedAs v w ∧ w.name = s := by
  constructor
  · intro w hw
    obtain ⟨v, hv, rfl⟩ := readXarray_mem hw
    rw [(singleValue_used v).2.1]
    exact List.mem_singleton.1 (hv.2.1 [s] rfl)
  · intro v hv hs he hb
    refine ⟨singleValue v, asked_read ⟨hv, ?_, he, hb⟩, (singleValue_used v).1, (singleValue_used v).2.1.trans hs⟩
    intro l hl
    injection hl with hl
    subst hl
    exact List.mem_singleton.2 hs

/-- C113. All main and auxiliary variables written are those of this name. -/
theorem C113_written (env : ApiEnv F) (args : NCToNAArgs F) (nc : NCFile F) (s : Str) (ex : NamesArg)
    (ds : List (Dict (PyVal F))) (hnc : env.openNC args.ncFile = .ok nc)
    (h : ncDicts env { args with varIds := (NamesArg.one s).ids, excludeVars := ex.excluded } = .ok ds) :
    ∀ d ∈ ds, ∃ main, main ≠ [] ∧ (∀ v ∈ main, v ∈ nc.vars ∧ v.name = s) ∧
      dictGet? d "V" = some (.list (main.map (fun v => pyTree (written env.collect.x v)))) := by
  intro d hd
  obtain ⟨main, aux, names, pre, h1, h2, h3, _⟩ := C76_written env
    { args with varIds := (NamesArg.one s).ids, excludeVars := ex.excluded } nc ds hnc h d hd
  refine ⟨main, h2, fun v hv => ?_, h3⟩
  have := h1 v (List.mem_append_left _ hv)
  exact ⟨this.1, List.mem_singleton.1 (this.2.1 [s] rfl)⟩

/-- C113 is false for `exclude_vars`: one name leaves no variable out that has not a name of one letter, so above all not
that of this name. -/
theorem C113_exclude_fails {nc : NCFile F} {s : Str} {v : XVar F} (hv : v ∈ nc.vars) (hl : v.name.length ≠ 1)
    (hb : ∀ w ∈ nc.vars, dictGet? w.attrs "bounds" ≠ some v.name) :
    ∃ w ∈ readXarrayFile nc.vars none (NamesArg.one s).excluded, UsedAs v w ∧ w.name = v.name := by
  refine ⟨singleValue v, asked_read ⟨hv, fun _ h => (by cases h), ?_, hb⟩, (singleValue_used v).1, (singleValue_used v).2.1⟩
  intro e he ha
  obtain ⟨c, _, rfl⟩ := List.mem_map.1 he
  exact hl ha.1

/-- C113 is false for `exclude_vars`: variables are left out that nobody named, those with a letter of the name as their
name. -/
theorem C113_letters_fails {nc : NCFile F} {s : Str} {c : Char} (hc : c ∈ s) (ids : Option (List Str)) :
    ∀ w ∈ readXarrayFile nc.vars ids (NamesArg.one s).excluded, w.name ≠ [c] := by
  intro w hw e
  obtain ⟨v, hv, rfl⟩ := readXarray_mem hw
  rw [(singleValue_used v).2.1] at e
  refine hv.2.2.1 [c] (List.mem_map.2 ⟨c, hc, rfl⟩) ?_
  rw [e]
  exact (safeName_iff _ _).1 rfl

/-- C113, in part: a list of names leaves out what is like one of them, and so does one name of one letter. What is missing:
longer names. -/
theorem C113_exclude_partial {nc : NCFile F} {ids : Option (List Str)} {c : Char} {v : XVar F} (hv : v ∈ nc.vars)
    (hi : ∀ l, ids = some l → v.name ∈ l) (hb : ∀ w ∈ nc.vars, dictGet? w.attrs "bounds" ≠ some v.name) :
    (∀ s, (∃ w ∈ readXarrayFile nc.vars ids (NamesArg.many [s]).excluded, w.name = v.name) ↔ ¬ Alike v.name s) ∧
      ((∃ w ∈ readXarrayFile nc.vars ids (NamesArg.one [c]).excluded, w.name = v.name) ↔ ¬ Alike v.name [c]) := by
  have key : ∀ s, (∃ w ∈ readXarrayFile nc.vars ids [s], w.name = v.name) ↔ ¬ Alike v.name s := by
    intro s
    constructor
    · rintro ⟨w, hw, e⟩ ha
      obtain ⟨u, hu, rfl⟩ := readXarray_mem hw
      rw [(singleValue_used u).2.1] at e
      exact hu.2.2.1 s (by simp) (by rw [e]; exact ha)
    · intro ha
      exact ⟨singleValue v, asked_read ⟨hv, hi, fun e he => by rw [List.mem_singleton.1 he]; exact ha, hb⟩,
        (singleValue_used v).2.1⟩
  exact ⟨key, key [c]⟩

/-- A file with the variables `temp`, `time`, `edges`, `depth` and others: one name is asked for; the same as a name to leave
out does nothing. -/
example : (readXarrayFile Ex.selectNC.vars (NamesArg.one "temp".toList).ids []).map XVar.name = ["temp".toList] ∧
    "temp".toList ∈ (readXarrayFile Ex.selectNC.vars none (NamesArg.one "temp".toList).excluded).map XVar.name ∧
    "temp".toList ∉ (readXarrayFile Ex.selectNC.vars none (NamesArg.many ["temp".toList]).excluded).map XVar.name := by
  decide +kernel

/-- A variable with a letter as its name is left out together with it. -/
example : (readXarrayFile [Ex.dataVar "temp" [exTime] none none, Ex.dataVar "p" [exTime] none none] none
      (NamesArg.one "temp".toList).excluded).map XVar.name = ["temp".toList] := by
  decide +kernel

end Nappy.Props
