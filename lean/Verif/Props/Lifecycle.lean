import Verif.Lifecycle
import Verif.Props.Write

/-! Properties C17 and C56: the life of a file object. -/

namespace Nappy.Props

open Nappy Spec

variable {F : Type}

/-- A `write` call that returned. -/
def isGoodWrite : Call F × Option Err → Bool
  | (.write _ _, none) => true
  | _ => false

/-- A call that neither writes nor closes. -/
def isQuiet : Call F → Bool
  | .readData _ _ => true
  | .edit _ => true
  | _ => false

theorem run_done (h : Handle F) (cs : List (Call F))
    (hd : h.mode ≠ .w ∨ h.dataWritten = true ∨ h.isOpen = false) :
    (h.run cs).1.file = h.file ∧ ∀ e ∈ (h.run cs).2, isGoodWrite e = false := by
  induction cs generalizing h with
  | nil => exact ⟨rfl, by simp [Handle.run]⟩
  | cons c cs ih =>
    cases c with
    | write env nh =>
      have hw : h.write env nh = (h, some .exn) := by
        unfold Handle.write
        by_cases h1 : h.mode ≠ .w
        · rw [if_pos h1]
        · rw [if_neg h1]
          by_cases h2 : h.dataWritten = true
          · rw [if_pos h2]
          · rw [if_neg h2, if_pos]
            rcases hd with h3 | h3 | h3
            · exact absurd h3 h1
            · exact absurd h3 h2
            · rw [h3]; rfl
      obtain ⟨h1, h2⟩ := ih h hd
      simp only [Handle.run, Handle.call, hw]
      refine ⟨h1, ?_⟩
      intro e he
      rcases List.mem_cons.1 he with rfl | he
      · rfl
      · exact h2 e he
    | readData d err =>
      obtain ⟨h1, h2⟩ := ih { h with dict := d } hd
      simp only [Handle.run, Handle.call]
      refine ⟨h1, ?_⟩
      intro e he
      rcases List.mem_cons.1 he with rfl | he
      · rfl
      · exact h2 e he
    | edit d =>
      obtain ⟨h1, h2⟩ := ih { h with dict := d } hd
      simp only [Handle.run, Handle.call]
      refine ⟨h1, ?_⟩
      intro e he
      rcases List.mem_cons.1 he with rfl | he
      · rfl
      · exact h2 e he
    | close =>
      obtain ⟨h1, h2⟩ := ih h.close (Or.inr (Or.inr rfl))
      simp only [Handle.run, Handle.call]
      refine ⟨h1, ?_⟩
      intro e he
      rcases List.mem_cons.1 he with rfl | he
      · rfl
      · exact h2 e he

theorem write_good {h : Handle F} {env : Env F} {nh : Bool} (hg : (h.write env nh).2 = none) :
    (h.write env nh).1.dataWritten = true := by
  unfold Handle.write at hg ⊢
  split at hg
  · cases hg
  split at hg
  · cases hg
  split at hg
  · cases hg
  rename_i h1 h2 h3
  rw [if_neg h1, if_neg h2, if_neg h3]
  dsimp only at hg ⊢
  rw [if_pos hg]

/-- C17. Whatever calls are made on one object, in whatever state it is, at most one of its `write` calls
succeeds. -/
theorem C17_write_once (h : Handle F) (cs : List (Call F)) :
    (((h.run cs).2).filter isGoodWrite).length ≤ 1 := by
  induction cs generalizing h with
  | nil => simp [Handle.run]
  | cons c cs ih =>
    simp only [Handle.run]
    cases hg : isGoodWrite (c, (h.call c).2) with
    | false => rw [List.filter_cons_of_neg (by simp [hg])]; exact ih _
    | true =>
      rw [List.filter_cons_of_pos hg]
      have : ∀ e ∈ ((h.call c).1.run cs).2, isGoodWrite e = false := by
        cases c with
        | write env nh =>
          have hn : (h.write env nh).2 = none := by
            cases hx : (h.write env nh).2 with
            | none => rfl
            | some e => simp [Handle.call, hx, isGoodWrite] at hg
          exact (run_done _ cs (Or.inr (Or.inl (write_good hn)))).2
        | readData d e => simp [isGoodWrite] at hg
        | edit d => simp [isGoodWrite] at hg
        | close => simp [isGoodWrite] at hg
      rw [List.filter_eq_nil_iff.2 (by intro e he; simp [this e he])]
      simp

/-- C17. A `write` on an object opened for reading, on a closed one, or after a successful `write` raises
and changes nothing. -/
theorem C17_refused (h : Handle F) (env : Env F) (noHeader : Bool)
    (hd : h.mode = .r ∨ h.isOpen = false ∨ h.dataWritten = true) :
    h.call (.write env noHeader) = (h, some .exn) := by
  unfold Handle.call Handle.write
  simp only
  by_cases h1 : h.mode ≠ .w
  · rw [if_pos h1]
  · rw [if_neg h1]
    by_cases h2 : h.dataWritten = true
    · rw [if_pos h2]
    · rw [if_neg h2, if_pos]
      rcases hd with h3 | h3 | h3
      · rw [h3] at h1; simp at h1
      · rw [h3]; rfl
      · exact absurd h3 h2

/-- C17. Nothing done with an object opened for reading, or after `close`, or after a successful `write`
changes the file. -/
theorem C17_file_unchanged (h : Handle F) (cs : List (Call F))
    (hd : h.mode = .r ∨ h.isOpen = false ∨ h.dataWritten = true) :
    (h.run cs).1.file = h.file := by
  refine (run_done h cs ?_).1
  rcases hd with h | h | h
  · left; rw [h]; decide
  · right; right; exact h
  · right; left; exact h

/-- C17. A file opened for reading is never changed through the object, and no `write` succeeds. -/
theorem C17_read (dict : Obj F) (text : Str) (cs : List (Call F)) :
    ((openR dict text).run cs).1.file = text ∧ ∀ e ∈ ((openR dict text).run cs).2, isGoodWrite e = false :=
  run_done (openR dict text) cs (Or.inl (show Mode.r ≠ Mode.w by decide))

theorem run_append (h : Handle F) (as bs : List (Call F)) :
    (h.run (as ++ bs)).1 = ((h.run as).1.run bs).1 := by
  induction as generalizing h with
  | nil => rfl
  | cons a as ih => simp only [List.cons_append, Handle.run]; exact ih _

theorem run_quiet (h : Handle F) (as : List (Call F)) (ha : ∀ c ∈ as, isQuiet c = true) :
    (h.run as).1 = { h with dict := (h.run as).1.dict } := by
  induction as generalizing h with
  | nil => rfl
  | cons a as ih =>
    have ht : ∀ c ∈ as, isQuiet c = true := fun c hc => ha c (by simp [hc])
    cases a with
    | readData d e => simp only [Handle.run, Handle.call]; exact ih { h with dict := d } ht
    | edit d => simp only [Handle.run, Handle.call]; exact ih { h with dict := d } ht
    | write env nh => have := ha (.write env nh) (by simp); simp [isQuiet] at this
    | close => have := ha .close (by simp); simp [isQuiet] at this

theorem write_open (h : Handle F) (env : Env F) (nh : Bool) (h1 : h.mode = .w)
    (h2 : h.dataWritten = false) (h3 : h.isOpen = true) :
    h.write env nh = ({ h with dict := (h.dict.write env nh).1,
                               file := h.file ++ (h.dict.write env nh).2.text,
                               dataWritten := if (h.dict.write env nh).2.err = none then true else false },
                      (h.dict.write env nh).2.err) := by
  unfold Handle.write
  rw [if_neg (by simp [h1]), if_neg (by simp [h2]), if_neg (by simp [h3])]
  simp only [h2]

theorem write_dataWritten (h : Handle F) (env : Env F) (nh : Bool) (h1 : h.mode = .w)
    (h2 : h.dataWritten = false) (h3 : h.isOpen = true) (hok : (h.dict.write env nh).2.err = none) :
    (h.write env nh).1.dataWritten = true ∧
    (h.write env nh).1.file = h.file ++ (h.dict.write env nh).2.text := by
  rw [write_open h env nh h1 h2 h3]
  exact ⟨by simp [hok], rfl⟩

theorem write_failed (h : Handle F) (env : Env F) (nh : Bool) (h1 : h.mode = .w)
    (h2 : h.dataWritten = false) (h3 : h.isOpen = true) (hok : (h.dict.write env nh).2.err ≠ none) :
    (h.write env nh).1 = { h with dict := (h.dict.write env nh).1,
                                  file := h.file ++ (h.dict.write env nh).2.text } := by
  rw [write_open h env nh h1 h2 h3]
  simp [hok, h2]

/-- C17. If the first `write` of a new object succeeds, whatever was read or edited before, then after any
further calls the file holds exactly the output of that `write`. -/
theorem C17_content (d : Obj F) (before after : List (Call F)) (env : Env F) (noHeader : Bool)
    (hb : ∀ c ∈ before, isQuiet c = true)
    (hok : ((((openW d).run before).1.dict).write env noHeader).2.err = none) :
    ((openW d).run (before ++ .write env noHeader :: after)).1.file
      = ((((openW d).run before).1.dict).write env noHeader).2.text := by
  rw [run_append]
  have hq := run_quiet (openW d) before hb
  generalize ((openW d).run before).1 = h at hq hok
  obtain ⟨w1, w2⟩ := write_dataWritten h env noHeader (by rw [hq]; rfl) (by rw [hq]; rfl)
    (by rw [hq]; rfl) hok
  simp only [Handle.run, Handle.call]
  rw [C17_file_unchanged _ _ (Or.inr (Or.inr w1)), w2]
  have : h.file = [] := by rw [hq]; rfl
  rw [this]; rfl

/-- C56. A failed `write` does not use up the object and is not undone: if the caller corrects the
dictionary and writes again, the partial output of the failed `write` stays in front of the second one. -/
theorem C56_retry_appends (d d' : Obj F) (env1 env2 : Env F) (nh1 nh2 : Bool)
    (h1 : (d.write env1 nh1).2.err ≠ none) (h2 : (d'.write env2 nh2).2.err = none)
    (after : List (Call F)) :
    ((openW d).run (.write env1 nh1 :: .edit d' :: .write env2 nh2 :: after)).1.file
      = (d.write env1 nh1).2.text ++ (d'.write env2 nh2).2.text := by
  have hf := write_failed (openW d) env1 nh1 rfl rfl rfl h1
  simp only [Handle.run, Handle.call, hf]
  obtain ⟨w1, w2⟩ := write_dataWritten
    { openW d with dict := d', file := (openW d).file ++ ((openW d).dict.write env1 nh1).2.text }
    env2 nh2 rfl rfl rfl h2
  rw [C17_file_unchanged _ _ (Or.inr (Or.inr w1)), w2]
  simp [openW]

/-- C56 is false: the first `write` stops in the second row, the caller completes `V` and writes again; the
file does not hold what one `write` of the same dictionary gives. -/
theorem C56_fails :
    let bad : Obj Int := .o1001 { Ex.d1001 with V := [[1, 2, 3], [-4]] }
    let good : Obj Int := .o1001 Ex.d1001
    let calls := [Call.write Ex.env false, .edit good, .write Ex.env false]
    ((openW bad).run calls).2.map Prod.snd = [some .index, none, none] ∧
    ((openW bad).run calls).1.file ≠ (good.write Ex.env false).2.text := by
  decide +kernel

/-- The hypotheses of `C17_content` are met: a write, a second one, `close`, a third one. -/
example :
    let calls := [Call.write Ex.env false, .write Ex.env true, .close, .write Ex.env false]
    ((openW (.o1001 Ex.d1001)).run calls).2.map Prod.snd = [none, some .exn, none, some .exn] ∧
    ((openW (.o1001 Ex.d1001)).run calls).1.file
      = ((Obj.o1001 Ex.d1001).write Ex.env false).2.text ∧
    ((openW (.o1001 Ex.d1001)).run calls).1.file.length ≠ 0 := by
  decide +kernel

end Nappy.Props
