import Verif.Props.Compare

/-! Property C107: the comparison of two items, `compare.py`, from both sides. -/

namespace Nappy.Props

open Nappy.Spec

theorem entry_of_mem {es : List (Str × FNode)} (h : (es.map Prod.fst).Nodup) {item : Str} {node : FNode}
    (hm : (item, node) ∈ es) : (FNode.dir es).entry? item = some node := by
  change Option.map Prod.snd (es.find? (fun e => e.1 == item)) = some node
  induction es with
  | nil => cases hm
  | cons e es ih =>
    rw [List.map_cons, List.nodup_cons] at h
    rcases List.mem_cons.1 hm with he | hm
    · rw [← he, List.find?_cons_of_pos (by simp)]
      rfl
    · have hne : e.1 ≠ item := fun he => h.1 (he ▸ List.mem_map.2 ⟨_, hm, rfl⟩)
      rw [List.find?_cons_of_neg (by simpa using hne)]
      exact ih h.2 hm

theorem report_swapped {path : List Str} {name : Str} {es : List (Str × FNode)} {n2 : FNode} {m : DirMsg}
    (h : DirReport path name es n2 m) : ∀ {p : List Str} {d : LineDiff}, m = .diff p d → Tidy (.dir es) →
    ∀ es2, n2 = .dir es2 → ∀ name2, ¬ LeftOutDir name2 → DirReport path name2 es2 (.dir es) (.diff p (swapped d)) := by
  induction h with
  | leftOutDir => intro p d e; cases e
  | missing => intro p d e; cases e
  | leftOutFile => intro p d e; cases e
  | line hx h1 h2 hf ha hb hne =>
    intro p d e ht es2 e2 name2 hx2
    subst e2
    injection e with e1 e3
    subst e1 e3
    cases ht with
    | dir hn _ => exact .line hx2 (entry_mem h2) (entry_of_mem hn h1) hf hb ha (Ne.symm hne)
  | @inside path name es es1 n2 node2 item m hx h1 h2 hr ih =>
    intro p d e ht es2 e2 name2 hx2
    subst e2
    cases ht with
    | dir hn hs =>
      cases node2 with
      | file t =>
        subst e
        cases hr with
        | inside _ _ k2 => cases k2
        | line _ _ k2 => cases k2
      | dir es3 =>
        have hl : ¬ LeftOutDir item := by
          subst e
          cases hr with
          | inside k => exact k
          | line k => exact k
        exact .inside hx2 (entry_mem h2) (entry_of_mem hn h1) (ih e (hs _ h1) es3 rfl item hl)

theorem rawDiffs_swapped : ∀ (k : Nat) (l1 l2 : List Str), rawDiffs k l2 l1 = (rawDiffs k l1 l2).map swapped
  | _, [], [] => rfl
  | _, [], _ :: _ => rfl
  | _, _ :: _, [] => rfl
  | k, a :: as, b :: bs => by
    simp only [rawDiffs, rawDiffs_swapped (k + 1) as bs]
    by_cases h : a = b
    · rw [if_neg (by simpa using h.symm), if_neg (by simpa using h)]
    · rw [if_pos (by simpa using Ne.symm h), if_pos (by simpa using h)]
      rfl

/-- C107 for files: the other way round the same lines are reported, with the sides exchanged. -/
theorem C107_files (name1 name2 t1 t2 : Str) (h1 : ¬ LeftOutFile name1) (h2 : ¬ LeftOutFile name2) :
    ∃ ds : List LineDiff, compareItems name1 (some (.file t1)) (some (.file t2)) = .ok (ds.map (.diff [])) ∧
      compareItems name2 (some (.file t2)) (some (.file t1)) = .ok ((ds.map swapped).map (.diff [])) ∧
      ∀ d, d ∈ ds ↔ ∃ i, d.number = i + 1 ∧ (fileLines t1)[i]? = some d.first ∧ (fileLines t2)[i]? = some d.second ∧
        d.first ≠ d.second := by
  refine ⟨rawDiffs 0 (fileLines t1) (fileLines t2), ?_, ?_, fun d => ?_⟩
  · simp only [compareItems, compFiles, not_leftOutFile.1 h1]
    rfl
  · rw [← rawDiffs_swapped]
    simp only [compareItems, compFiles, not_leftOutFile.1 h2]
    rfl
  · rw [rawDiffs_iff]
    constructor
    · rintro ⟨i, a, b, k1, k2, k3, rfl⟩
      exact ⟨i, by simp, k1, k2, k3⟩
    · rintro ⟨i, k1, k2, k3, k4⟩
      obtain ⟨n, a, b⟩ := d
      simp only at k1 k2 k3 k4
      exact ⟨i, a, b, k2, k3, k4, by simp [k1]⟩

/-- C107 for directories, in part: the other way round the same lines of the same files are reported, with the sides
exchanged. What is missing: entries that only one of them has are reported from one side only. -/
theorem C107_dirs_partial (name1 name2 : Str) (es1 es2 : List (Str × FNode)) (hx1 : ¬ LeftOutDir name1)
    (hx2 : ¬ LeftOutDir name2) (ht1 : Tidy (.dir es1)) (ht2 : Tidy (.dir es2)) {m1 m2 : List DirMsg}
    (h1 : compareItems name1 (some (.dir es1)) (some (.dir es2)) = .ok m1)
    (h2 : compareItems name2 (some (.dir es2)) (some (.dir es1)) = .ok m2) (p : List Str) (d : LineDiff) :
    .diff p d ∈ m1 ↔ .diff p (swapped d) ∈ m2 := by
  rw [compDirs_exact [] name1 es1 (.dir es2) m1 h1, compDirs_exact [] name2 es2 (.dir es1) m2 h2]
  constructor
  · intro h
    exact report_swapped h rfl ht1 es2 rfl name2 hx2
  · intro h
    exact report_swapped h rfl ht2 es1 rfl name1 hx1

theorem report_self {path : List Str} {name : Str} {es : List (Str × FNode)} {n2 : FNode} {m : DirMsg}
    (h : DirReport path name es n2 m) : Tidy (.dir es) → n2 = .dir es → ¬ ReportsDifference m := by
  induction h with
  | leftOutDir => intro _ _ h; exact h
  | leftOutFile => intro _ _ h; exact h
  | missing hx h1 h2 =>
    intro ht e
    subst e
    cases ht with
    | dir hn _ => rw [entry_of_mem hn h1] at h2; cases h2
  | line hx h1 h2 hf ha hb hne =>
    intro ht e
    subst e
    cases ht with
    | dir hn _ =>
      rw [entry_of_mem hn h1] at h2
      cases h2
      rw [ha] at hb
      cases hb
      exact absurd rfl hne
  | inside hx h1 h2 hr ih =>
    intro ht e
    subst e
    cases ht with
    | dir hn hs =>
      rw [entry_of_mem hn h1] at h2
      cases h2
      exact ih (hs _ h1) rfl

theorem meets_self {name : Str} {es : List (Str × FNode)} {n2 : FNode} (h : FileMeetsDir name es n2) :
    Tidy (.dir es) → n2 ≠ .dir es := by
  induction h with
  | here hx h1 h2 hf =>
    intro ht e
    subst e
    cases ht with
    | dir hn _ => rw [entry_of_mem hn h1] at h2; cases h2
  | inside hx h1 h2 hr ih =>
    intro ht e
    subst e
    cases ht with
    | dir hn hs =>
      rw [entry_of_mem hn h1] at h2
      cases h2
      exact ih (hs _ h1) rfl

/-- C107: an item compared with itself, or with a copy of another name, comes to an end and no difference is
reported. -/
theorem C107_self (name : Str) (i : FNode) (ht : Tidy i) :
    ∃ msgs, compareItems name (some i) (some i) = .ok msgs ∧ ∀ m ∈ msgs, ¬ ReportsDifference m := by
  cases i with
  | file t =>
    unfold compareItems compFiles
    by_cases hx : excludedFile name = true
    · exact ⟨_, if_pos hx, fun m hm h => by rw [List.mem_singleton.1 hm] at h; exact h⟩
    · refine ⟨_, if_neg hx, fun m hm => ?_⟩
      obtain ⟨d, hd, _⟩ := List.mem_map.1 hm
      obtain ⟨i, a, b, k1, k2, k3, _⟩ := rawDiffs_iff.1 hd
      rw [k1] at k2
      cases k2
      exact absurd rfl k3
  | dir es =>
    rcases compDirs_stops [] name es (.dir es) with ⟨h, _⟩ | ⟨_, msgs, e⟩
    · exact absurd rfl (meets_self h ht)
    · exact ⟨msgs, e, fun m hm => report_self ((compDirs_exact [] name es (.dir es) msgs e m).1 hm) ht rfl⟩

/-- C107: the program compares what its two arguments stand for; the name that decides whether it is left out is the
part after the last slash. With another number of arguments nothing is compared. -/
theorem C107_program (look : Str → Option FNode) :
    (∀ before name b : Str, '/' ∉ name →
      compareProgram look [before ++ '/' :: name, b] = compareItems name (look (before ++ '/' :: name)) (look b)) ∧
    (∀ name b : Str, '/' ∉ name → compareProgram look [name, b] = compareItems name (look name) (look b)) ∧
    ∀ args : List Str, args.length ≠ 2 → compareProgram look args = .error .exit := by
  have hs : ∀ name : Str, '/' ∉ name → splitP (· == '/') name = [name] := fun name h =>
    splitP_none _ _ fun c hc => beq_eq_false_iff_ne.2 fun e => h (e ▸ hc)
  refine ⟨fun before name b h => ?_, fun name b h => ?_, fun args h => ?_⟩
  · change compareItems (((splitP (· == '/') (before ++ '/' :: name)).getLast?).getD []) _ _ = _
    rw [splitP_append_sep _ _ _ _ rfl, hs name h]
    simp
  · change compareItems (((splitP (· == '/') name).getLast?).getD []) _ _ = _
    rw [hs name h]
    rfl
  · unfold compareProgram
    split
    · exact absurd rfl h
    · rfl

/-- C107 fails for directories: an entry that only one of them has is reported from one side only. -/
theorem C107_dirs_fails : compareItems "a".toList (some (.dir [("f".toList, .file [])])) (some (.dir [])) =
      .ok [.missing ["f".toList]] ∧
    compareItems "b".toList (some (.dir [])) (some (.dir [("f".toList, .file [])])) = .ok [] :=
  ⟨by rw [compareItems, compDirs, if_neg (by decide +kernel), compEntries, compEntries]; rfl,
    by rw [compareItems, compDirs, if_neg (by decide +kernel), compEntries]⟩

/-- C107 fails if one file name is among those left out: then one side reports nothing. -/
theorem C107_files_fails :
    compareItems "a.na".toList (some (.file "1\n".toList)) (some (.file "2\n".toList)) =
      .ok [.diff [] { number := 1, first := "1\n".toList, second := "2\n".toList }] ∧
    compareItems "a.na~".toList (some (.file "2\n".toList)) (some (.file "1\n".toList)) = .ok [.ignoredFile []] :=
  ⟨by rfl, by rfl⟩

/-- The hypotheses are met. -/
example : Tidy (Ex.dirOf "1\n".toList) ∧ ¬ LeftOutDir "d".toList ∧
    (∃ m, compareItems "d".toList (some (Ex.dirOf "1\n".toList)) (some (Ex.dirOf "2\n".toList)) = .ok m ∧
      .diff ["sub".toList, "f.na".toList] { number := 1, first := "1\n".toList, second := "2\n".toList } ∈ m) :=
  ⟨.dir (by decide) (by
      intro e he
      rw [List.mem_singleton.1 he]
      exact .dir (by decide) (by intro e he; rw [List.mem_singleton.1 he]; exact .file _)),
    not_leftOutDir.2 (by decide +kernel), _, Ex.compare_dirOf _ _, by decide +kernel⟩

end Nappy.Props
