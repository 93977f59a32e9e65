import Verif.CompareLemmas

/-! Properties C49, C50, C51, C68, C69 and C70: the comparison of files and directories. -/

namespace Nappy.Props

open Nappy.Spec

variable {F : Type}

namespace Ex

/-- Whole numbers, with the rule of the code for numbers near each other left to rounding division. -/
def cmpEnv : CmpEnv Int :=
  { parse := fun s => parseInt (strip s), eq := fun a b => decide (a = b), lt := fun a b => decide (a < b),
    sub := fun a b => a - b, div := fun a b => a / b, zero := 0, one := 1, tiny := 1, threshold := 0 }

def cmpOpts : CmpOpts := { header := true, body := true, clever := true, approx := false, d1 := none, d2 := none }

def fileA : Str := "2 1001\nabc\n1  2\n".toList

def fileB : Str := "2 1001\nxyz\n1  2\n".toList

def fileC : Str := "2 1001\nabc\n1 2\n3 4\n".toList

end Ex

/-! ### C49 -/

/-- C49. A file compared with itself is not reported to be different, whatever the options, if it is split in the
same way. Numbers spelt without letters are equal to themselves (there is no other way to spell "not a number"). -/
theorem C49 (env : CmpEnv F) (o : CmpOpts) (name t : Str) (hd : o.d1 = o.d2)
    (heq : ∀ s x, (∀ c ∈ s, isLetter c = false) → env.parse s = some x → env.eq x x = true)
    {v : Option Bool} {msgs : List CmpMsg} (h : compNAFiles env o name (some t) (some t) = .ok (v, msgs)) :
    v ≠ some false ∧ ∀ m ∈ msgs, ¬ SaysDifferent m := by
  unfold compNAFiles at h
  split at h
  · cases h
    exact ⟨by simp, by simp [SaysDifferent]⟩
  · simp only at h
    obtain ⟨n1, h1, h⟩ := ok_of_bind h
    obtain ⟨n2, h2, h⟩ := ok_of_bind h
    rw [← hd, h1] at h2
    cases h2
    have hne : o.d1 ≠ some [] := by
      intro he
      rw [he] at h1
      obtain ⟨f, _, h1⟩ := ok_of_bind h1
      obtain ⟨i, h3, _⟩ := ok_of_bind h1
      cases h3
    have hsec : ∀ w b l same, compareSection env o w b l l same =
        .ok (if w then true else same, if w then [.identical b] else []) := by
      intro w b l same
      unfold compareSection compareSections
      rw [sectionsGo_self hd hne heq]
      cases w <;> simp [sectionMsgs]
    rw [hsec, ok_bind, hsec, ok_bind] at h
    cases h
    refine ⟨?_, ?_⟩
    · cases o.header <;> cases o.body <;> simp
    · intro m hm
      cases hh : o.header <;> cases hb : o.body <;> simp [hh, hb] at hm
      · subst hm; simp [SaysDifferent]
      · subst hm; simp [SaysDifferent]
      · rcases hm with rfl | rfl <;> simp [SaysDifferent]

/-- C49, the comparison comes to an end: the first word of the file has to be a whole number. -/
theorem C49_runs (env : CmpEnv F) (o : CmpOpts) (name t first w : Str) (rest ws : List Str) (n : Int)
    (h1 : o.d1 = none) (h2 : o.d2 = none)
    (heq : ∀ s x, (∀ c ∈ s, isLetter c = false) → env.parse s = some x → env.eq x x = true)
    (ht : fileLines t = first :: rest) (hw : words first = w :: ws) (hn : pyInt w = .ok n) :
    ∃ v msgs, compNAFiles env o name (some t) (some t) = .ok (v, msgs) := by
  unfold compNAFiles
  split
  · exact ⟨_, _, rfl⟩
  · have hl : headLength none (fileLines t) = .ok n := by
      simp only [headLength, ht, idx, List.getElem?_cons_zero, ok_bind, splitDelim, hw, hn]
    simp only [h1, h2, hl, ok_bind]
    unfold compareSection compareSections
    simp only [sectionsGo_self (h1.trans h2.symm) (by simp [h1]) heq]
    cases o.header <;> cases o.body <;> exact ⟨_, _, rfl⟩

example : ∃ v msgs, compNAFiles Ex.cmpEnv Ex.cmpOpts "a.na".toList (some Ex.fileA) (some Ex.fileA) = .ok (v, msgs) ∧
    v ≠ some false :=
  ⟨some true, [.identical false, .identical true], by decide +kernel, by simp⟩

example : ∀ s x, (∀ c ∈ s, isLetter c = false) → Ex.cmpEnv.parse s = some x → Ex.cmpEnv.eq x x = true := by
  intro s x _ _; simp [Ex.cmpEnv]

/-! ### C50 -/

/-- C50, what is printed. If no difference is printed for header and body, all lines of the files agree and there are
as many. -/
theorem C50 (env : CmpEnv F) (o : CmpOpts) (name t1 t2 : Str) (hh : o.header = true) (hb : o.body = true)
    (ha : o.approx = false) (hx : ¬ LeftOutFile name) {v : Option Bool} {msgs : List CmpMsg}
    (h : compNAFiles env o name (some t1) (some t2) = .ok (v, msgs)) (hm : ∀ m ∈ msgs, ¬ SaysDifferent m) :
    List.Forall₂ (LinesAgree (if o.clever then SameItem env.parse env.eq else Eq) o.d1 o.d2)
      (fileLines t1) (fileLines t2) := by
  unfold compNAFiles at h
  rw [not_leftOutFile.1 hx] at h
  simp only [Bool.false_eq_true, if_false] at h
  obtain ⟨n1, h1, h⟩ := ok_of_bind h
  obtain ⟨n2, h2, h⟩ := ok_of_bind h
  obtain ⟨r1, h3, h⟩ := ok_of_bind h
  obtain ⟨r2, h4, h⟩ := ok_of_bind h
  cases h
  have key : ∀ b l1 l2 same r, compareSection env o true b l1 l2 same = .ok r → (∀ m ∈ r.2, ¬ SaysDifferent m) →
      List.Forall₂ (LinesAgree (if o.clever then SameItem env.parse env.eq else Eq) o.d1 o.d2) l1 l2 := by
    intro b l1 l2 same r hr hms
    unfold compareSection compareSections at hr
    rw [if_pos rfl] at hr
    obtain ⟨ds, hd, hr⟩ := ok_of_bind hr
    cases hr
    simp only [sectionMsgs] at hms
    have hds : ds = [] := by
      cases ds with
      | nil => rfl
      | cons d ds => exact absurd trivial (hms (.diff b d) (by simp))
    subst hds
    have hlen : l1.length = l2.length := by
      by_contra hne
      exact hms (.lengths b l1.length l2.length) (by simp [hne]) trivial
    have := sectionsGo_nil ha hd
    rwa [← hlen, List.take_length, hlen, List.take_length] at this
  rw [hh] at h3
  rw [hb] at h4
  have e1 := key _ _ _ _ _ h3 fun m hm' => hm m (List.mem_append_left _ hm')
  have e2 := key _ _ _ _ _ h4 fun m hm' => hm m (List.mem_append_right _ hm')
  rw [← slice_parts (fileLines t1) n1, ← slice_parts (fileLines t2) n2]
  exact List.rel_append e1 e2

example : ∃ v msgs, compNAFiles Ex.cmpEnv Ex.cmpOpts "a.na".toList (some Ex.fileA)
      (some "2 1001\nabc\n+1 02".toList) = .ok (v, msgs) ∧ ∀ m ∈ msgs, ¬ SaysDifferent m :=
  ⟨some true, [.identical false, .identical true], by decide +kernel, by simp [SaysDifferent]⟩

/-- C50, the value returned: `True` only says that the last section compared agrees as far as both files go. -/
theorem C50_partial (env : CmpEnv F) (o : CmpOpts) (name t1 t2 : Str) (n1 n2 : Int) (hb : o.body = true)
    (ha : o.approx = false) (hn1 : headLength o.d1 (fileLines t1) = .ok n1)
    (hn2 : headLength o.d2 (fileLines t2) = .ok n2) {msgs : List CmpMsg}
    (h : compNAFiles env o name (some t1) (some t2) = .ok (some true, msgs)) :
    List.Forall₂ (LinesAgree (if o.clever then SameItem env.parse env.eq else Eq) o.d1 o.d2)
      ((sliceFrom (fileLines t1) n1).take (sliceFrom (fileLines t2) n2).length)
      ((sliceFrom (fileLines t2) n2).take (sliceFrom (fileLines t1) n1).length) := by
  unfold compNAFiles at h
  split at h
  · cases h
  · simp only [hn1, hn2, ok_bind] at h
    obtain ⟨r1, h3, h⟩ := ok_of_bind h
    obtain ⟨r2, h4, h⟩ := ok_of_bind h
    rw [hb] at h4
    unfold compareSection compareSections at h4
    rw [if_pos rfl] at h4
    obtain ⟨ds, hd, hr⟩ := ok_of_bind h4
    cases hr
    simp only [Except.ok.injEq, Prod.mk.injEq, Option.some.injEq, List.isEmpty_iff] at h
    rw [h.1] at hd
    exact sectionsGo_nil ha hd

example : headLength none (fileLines Ex.fileA) = .ok 2 ∧ ∃ msgs,
    compNAFiles Ex.cmpEnv Ex.cmpOpts "a.na".toList (some Ex.fileA) (some Ex.fileC) = .ok (some true, msgs) :=
  ⟨by decide +kernel, [.identical false, .identical true, .lengths true 1 2], by decide +kernel⟩

/-- C50 does not hold for the value returned: files with different headers, and files of different lengths. -/
theorem C50_fails : (∃ msgs, compNAFiles Ex.cmpEnv Ex.cmpOpts "a.na".toList (some Ex.fileA) (some Ex.fileB) =
      .ok (some true, msgs)) ∧
    (∃ msgs, compNAFiles Ex.cmpEnv Ex.cmpOpts "a.na".toList (some Ex.fileA) (some Ex.fileC) = .ok (some true, msgs)) ∧
    (fileLines Ex.fileA)[1]? = some "abc\n".toList ∧ (fileLines Ex.fileB)[1]? = some "xyz\n".toList ∧
    (fileLines Ex.fileA).length ≠ (fileLines Ex.fileC).length :=
  ⟨⟨[.diff false { number := 2, first := "abc".toList, second := "xyz".toList }, .identical true], by decide +kernel⟩,
    ⟨[.identical false, .identical true, .lengths true 1 2], by decide +kernel⟩, by decide +kernel, by decide +kernel,
    by decide +kernel⟩

/-! ### C51 -/

section Field

variable [Field F] [LinearOrder F] [IsStrictOrderedRing F]

/-- The line is split into items that are these numbers. -/
theorem lineDiffers_numbers {env : CmpEnv F} {o : CmpOpts} {a b : Str} {i1 i2 : List Str} (hc : o.clever = true)
    (h1 : splitDelim o.d1 (strip a) = .ok i1) (h2 : splitDelim o.d2 (strip b) = .ok i2) (hl : i1.length = i2.length)
    (hne : strip a ≠ strip b) : lineDiffers env o a b = itemsDiffer env o.approx i1 i2 := by
  unfold lineDiffers
  simp only [h1, h2, ok_bind, hl, hc]
  rw [if_neg (by simp [hne])]
  simp

/-- C51, as far as it holds: numbers of opposite sign are reported. Numbers are exact, the threshold is below 1. -/
theorem C51_partial (parse : Str → Option F) (tiny threshold : F) (ht : 0 < tiny) (hth : threshold < 1) (o : CmpOpts)
    (hc : o.clever = true) (ha : o.approx = true) (l1 l2 : List Str) (i : Nat) (a b : Str) (x y : List F) (j : Nat)
    (u v : F) (h1 : l1[i]? = some a) (h2 : l2[i]? = some b) (hne : strip a ≠ strip b) (hx : NumberLine parse o.d1 a x)
    (hy : NumberLine parse o.d2 b y) (hl : x.length = y.length) (hu : x[j]? = some u) (hv : y[j]? = some v)
    (hs : ¬ SameSign u v) {ds : List LineDiff}
    (h : compareSections (fieldEnv parse tiny threshold) o l1 l2 = .ok ds) : ∃ d ∈ ds, d.number = i + 1 := by
  obtain ⟨i1, e1, f1⟩ := hx
  obtain ⟨i2, e2, f2⟩ := hy
  have hd := lineDiffers_numbers (env := fieldEnv parse tiny threshold) hc e1 e2
    (by rw [f1.length_eq, f2.length_eq, hl]) hne
  rw [ha, itemsDiffer_opposite ht hth f1 f2 ⟨j, u, v, hu, hv, hs⟩] at hd
  exact ⟨_, sectionsGo_reports h h1 h2 hd, by simp⟩

/-- C51 does not hold: numbers of the same sign are never reported, however far apart they are. -/
theorem C51_fails (parse : Str → Option F) (tiny threshold : F) (ht : 0 < tiny) (hth : 0 ≤ threshold) (o : CmpOpts)
    (hc : o.clever = true) (ha : o.approx = true) (a b : Str) (x y : List F) (hne : strip a ≠ strip b)
    (hx : NumberLine parse o.d1 a x) (hy : NumberLine parse o.d2 b y) (hs : List.Forall₂ SameSign x y) :
    compareSections (fieldEnv parse tiny threshold) o [a] [b] = .ok [] := by
  obtain ⟨i1, e1, f1⟩ := hx
  obtain ⟨i2, e2, f2⟩ := hy
  have hd := lineDiffers_numbers (env := fieldEnv parse tiny threshold) hc e1 e2
    (by rw [f1.length_eq, f2.length_eq, hs.length_eq]) hne
  rw [ha, itemsDiffer_sameSign ht hth f1 f2 hs] at hd
  simp [compareSections, sectionsGo, hd]

end Field

/-- 1 and 1000 on one line each, read as rational numbers. -/
def Ex.ratParse (s : Str) : Option Rat := (parseInt (strip s)).map (fun i => (i : Rat))

example : compareSections (fieldEnv Ex.ratParse (1 / 1000000000) (1 / 100))
    { Ex.cmpOpts with approx := true } ["1\n".toList] ["1000\n".toList] = .ok [] :=
  C51_fails Ex.ratParse _ _ (by norm_num) (by norm_num) _ rfl rfl _ _ [1] [1000] (by decide)
    ⟨["1".toList], by decide +kernel, .cons (by decide +kernel) .nil⟩
    ⟨["1000".toList], by decide +kernel, .cons (by decide +kernel) .nil⟩
    (.cons (.inl ⟨by norm_num, by norm_num⟩) .nil)

example : NumberLine Ex.ratParse none "3 -1\n".toList [3, -1] ∧ NumberLine Ex.ratParse none "3 1\n".toList [3, 1] ∧
    ¬ SameSign (-1 : Rat) 1 ∧ strip "3 -1\n".toList ≠ strip "3 1\n".toList :=
  ⟨⟨["3".toList, "-1".toList], by decide +kernel, .cons (by decide +kernel) (.cons (by decide +kernel) .nil)⟩,
    ⟨["3".toList, "1".toList], by decide +kernel, .cons (by decide +kernel) (.cons (by decide +kernel) .nil)⟩,
    by rintro (⟨h, _⟩ | ⟨_, h⟩) <;> norm_num at h, by decide +kernel⟩

/-! ### C68 -/

/-- The message with the files exchanged. -/
def swapMsg : CmpMsg → CmpMsg
  | .diff b d => .diff b d.swap
  | .lengths b n m => .lengths b m n
  | m => m

theorem sectionMsgs_swap (b : Bool) (ds : List LineDiff) (n m : Nat) :
    sectionMsgs b (ds.map LineDiff.swap) m n = (sectionMsgs b ds n m).map swapMsg := by
  unfold sectionMsgs
  have h1 : (ds.map LineDiff.swap).map (CmpMsg.diff b) = (ds.map (CmpMsg.diff b)).map swapMsg := by
    simp [swapMsg, Function.comp_def]
  rw [List.map_append, List.map_append, h1]
  by_cases hnm : n = m
  · subst hnm
    cases ds <;> simp [swapMsg]
  · have : m ≠ n := fun h => hnm h.symm
    cases ds <;> simp [swapMsg, hnm, this]

theorem compareSection_swap {env : CmpEnv F} {o : CmpOpts} (heq : ∀ a b, env.eq a b = env.eq b a)
    (hfar : o.approx = true → ∀ a b, env.tooFar a b = env.tooFar b a) (w b : Bool) (l1 l2 : List Str) (same : Bool) :
    compareSection env o.swap w b l2 l1 same =
      (compareSection env o w b l1 l2 same).map (fun r => (r.1, r.2.map swapMsg)) := by
  unfold compareSection compareSections
  cases w with
  | false => rfl
  | true =>
    simp only [if_true, sectionsGo_swap heq hfar]
    cases sectionsGo env o 0 l1 l2 with
    | error e => rfl
    | ok ds =>
      show Except.ok _ = Except.ok _
      rw [sectionMsgs_swap]
      cases ds <;> rfl

/-- C68. Comparing the files the other way round gives the same value and the same messages with the files exchanged,
if neither name is left out. `==` on numbers is symmetric. With `approx_equal` the test for numbers that are near each
other has to be symmetric as well, see `C68_approx`. -/
theorem C68 (env : CmpEnv F) (o : CmpOpts) (name1 name2 t1 t2 : Str) (hx1 : ¬ LeftOutFile name1)
    (hx2 : ¬ LeftOutFile name2) (heq : ∀ a b, env.eq a b = env.eq b a)
    (hfar : o.approx = true → ∀ a b, env.tooFar a b = env.tooFar b a) {v : Option Bool} {msgs : List CmpMsg}
    (h : compNAFiles env o name1 (some t1) (some t2) = .ok (v, msgs)) :
    compNAFiles env { o with d1 := o.d2, d2 := o.d1 } name2 (some t2) (some t1) = .ok (v, msgs.map swapMsg) := by
  unfold compNAFiles at h ⊢
  rw [not_leftOutFile] at hx1 hx2
  simp only [hx1, hx2, Bool.false_eq_true, if_false] at h ⊢
  obtain ⟨n1, h1, h⟩ := ok_of_bind h
  obtain ⟨n2, h2, h⟩ := ok_of_bind h
  obtain ⟨r1, h3, h⟩ := ok_of_bind h
  obtain ⟨r2, h4, h⟩ := ok_of_bind h
  cases h
  rw [h2, ok_bind, h1, ok_bind]
  have e1 := compareSection_swap heq hfar o.header false (sliceTo (fileLines t1) n1) (sliceTo (fileLines t2) n2) true
  have e2 := compareSection_swap heq hfar o.body true (sliceFrom (fileLines t1) n1) (sliceFrom (fileLines t2) n2) r1.1
  rw [h3] at e1
  rw [h4] at e2
  unfold CmpOpts.swap at e1 e2
  rw [e1]
  show (do
    let b ← compareSection env { o with d1 := o.d2, d2 := o.d1 } o.body true _ _ r1.1
    Except.ok (some b.1, r1.2.map swapMsg ++ b.2)) = _
  rw [e2]
  simp [Except.map]

/-- C68 with `approx_equal` and exact numbers. -/
theorem C68_approx [Field F] [LinearOrder F] [IsStrictOrderedRing F] (parse : Str → Option F) (tiny threshold : F)
    (ht : 0 < tiny) (h0 : 0 ≤ threshold) (h1 : threshold < 1) (o : CmpOpts) (name1 name2 t1 t2 : Str)
    (hx1 : ¬ LeftOutFile name1) (hx2 : ¬ LeftOutFile name2) {v : Option Bool} {msgs : List CmpMsg}
    (h : compNAFiles (fieldEnv parse tiny threshold) o name1 (some t1) (some t2) = .ok (v, msgs)) :
    compNAFiles (fieldEnv parse tiny threshold) { o with d1 := o.d2, d2 := o.d1 } name2 (some t2) (some t1) =
      .ok (v, msgs.map swapMsg) := by
  refine C68 _ o name1 name2 t1 t2 hx1 hx2 ?_ ?_ h
  · intro a b
    simp only [fieldEnv]
    exact decide_eq_decide.2 eq_comm
  · intro _ a b
    have hsym : ∀ {a b : F}, SameSign a b → SameSign b a := by
      rintro a b (⟨h, h'⟩ | ⟨h, h'⟩)
      · exact .inl ⟨h', h⟩
      · exact .inr ⟨h', h⟩
    by_cases hs : SameSign a b
    · rw [tooFar_sameSign ht h0 hs, tooFar_sameSign ht h0 (hsym hs)]
    · rw [tooFar_opposite ht h1 hs, tooFar_opposite ht h1 fun h => hs (hsym h)]

example : compNAFiles Ex.cmpEnv Ex.cmpOpts "b.na".toList (some Ex.fileC) (some Ex.fileB) =
    .ok (some true, [.diff false { number := 2, first := "abc".toList, second := "xyz".toList }, .identical true,
      .lengths true 2 1]) := by decide +kernel

/-! ### C69 -/

/-- C69 does not hold: `nappy.compareNA` raises `NameError` for every file. -/
theorem C69_fails (name t : Str) (i2 : Option FNode) : compareNA name (some (.file t)) i2 = .error .name := rfl

/-! ### C70 -/

/-- C70. Directories: wherever two files have the same path and lines of the same number that differ, this is
reported. -/
theorem C70_reports (name : Str) (es : List (Str × FNode)) (n2 : FNode) {msgs : List DirMsg}
    (h : compareNA name (some (.dir es)) (some n2) = .ok msgs) (hx : ¬ LeftOutDir name) (p : List Str)
    (t1 t2 : Str) (h1 : (FNode.dir es).at? p = some (.file t1)) (h2 : n2.at? p = some (.file t2)) (ho : OpenPath p)
    (i : Nat) (a b : Str) (ha : (fileLines t1)[i]? = some a) (hb : (fileLines t2)[i]? = some b) (hne : a ≠ b) :
    DirMsg.diff p { number := i + 1, first := a, second := b } ∈ msgs := by
  have := compDirs_reports p h (not_leftOutDir.1 hx) h1 h2 ho { number := i + 1, first := a, second := b }
    (rawDiffs_iff.2 ⟨i, a, b, ha, hb, hne, by simp⟩)
  simpa using this

/-- C70, exactly: what is reported is what `DirReport` says, for all that the directories hold: differing lines of the
files on both sides, entries that the second directory does not have, and files and directories that are left out. -/
theorem C70_exact (name : Str) (es : List (Str × FNode)) (n2 : FNode) {msgs : List DirMsg}
    (h : compareNA name (some (.dir es)) (some n2) = .ok msgs) (m : DirMsg) : m ∈ msgs ↔ DirReport [] name es n2 m :=
  compDirs_exact [] name es n2 msgs h m

/-- C70: the comparison comes to its end unless a file of the first directory has the name of a directory on the other
side; then it stops the program. -/
theorem C70_stops (name : Str) (es : List (Str × FNode)) (n2 : FNode) :
    (FileMeetsDir name es n2 → compareNA name (some (.dir es)) (some n2) = .error .exit) ∧
      (¬ FileMeetsDir name es n2 → ∃ msgs, compareNA name (some (.dir es)) (some n2) = .ok msgs) := by
  rcases compDirs_stops [] name es n2 with ⟨h, e⟩ | ⟨h, e⟩
  · exact ⟨fun _ => e, fun hn => absurd h hn⟩
  · exact ⟨fun hp => absurd hp h, fun _ => e⟩

example : FileMeetsDir "d".toList [("f".toList, .file [])] (.dir [("f".toList, .dir [])]) :=
  .here (not_leftOutDir.2 (by decide +kernel)) (List.mem_singleton.2 rfl) rfl (not_leftOutFile.2 (by decide +kernel))

/-- C70, the other way: every difference reported is one. -/
theorem C70_true (name : Str) (es : List (Str × FNode)) (n2 : FNode) {msgs : List DirMsg}
    (h : compareNA name (some (.dir es)) (some n2) = .ok msgs) (p : List Str) (d : LineDiff)
    (hm : DirMsg.diff p d ∈ msgs) :
    ∃ t1 t2 i, Reaches (.dir es) p t1 ∧ n2.at? p = some (.file t2) ∧ d.number = i + 1 ∧
      (fileLines t1)[i]? = some d.first ∧ (fileLines t2)[i]? = some d.second ∧ d.first ≠ d.second := by
  obtain ⟨q, t1, t2, e1, e2, e3, e4⟩ := compDirs_sound [] name es n2 msgs h p d hm
  obtain ⟨i, a, b, ha, hb, hne, rfl⟩ := rawDiffs_iff.1 e4
  simp only [List.nil_append] at e1
  subst e1
  exact ⟨t1, t2, i, e2, e3, by simp, ha, hb, hne⟩

/-- Two directories with a file each. -/
def Ex.dirOf (t : Str) : FNode := .dir [("sub".toList, .dir [("f.na".toList, .file t)])]

theorem Ex.compare_dirOf (t1 t2 : Str) : compareNA "d".toList (some (Ex.dirOf t1)) (some (Ex.dirOf t2)) =
    .ok ((rawDiffs 0 (fileLines t1) (fileLines t2)).map (.diff ["sub".toList, "f.na".toList])) := by
  have h1 : excludedDir "d".toList = false := by decide +kernel
  have h2 : excludedDir "sub".toList = false := by decide +kernel
  have h3 : excludedFile "f.na".toList = false := by decide +kernel
  have e1 : (Ex.dirOf t2).entry? "sub".toList = some (.dir [("f.na".toList, .file t2)]) := by
    simp [Ex.dirOf, FNode.entry?]
  have e2 : (FNode.dir [("f.na".toList, .file t2)]).entry? "f.na".toList = some (.file t2) := by
    simp [FNode.entry?]
  simp only [compareNA, Ex.dirOf, Option.getD_some]
  rw [compDirs, h1, if_neg Bool.false_ne_true, compEntries]
  rw [show (FNode.dir [("sub".toList, .dir [("f.na".toList, .file t2)])]).entry? "sub".toList = _ from e1]
  simp only
  rw [compDirs, h2, if_neg Bool.false_ne_true, compEntries, compEntries, e2]
  simp only [compFiles, h3, Bool.false_eq_true, if_false, compEntries, ok_bind, List.append_nil]
  rfl

example : (Ex.dirOf Ex.fileA).at? ["sub".toList, "f.na".toList] = some (.file Ex.fileA) ∧
    OpenPath ["sub".toList, "f.na".toList] ∧
    compareNA "d".toList (some (Ex.dirOf Ex.fileA)) (some (Ex.dirOf Ex.fileB)) =
      .ok [.diff ["sub".toList, "f.na".toList] { number := 2, first := "abc\n".toList, second := "xyz\n".toList }] := by
  refine ⟨rfl, ⟨not_leftOutDir.2 (by decide +kernel), ?_⟩, ?_⟩
  · show ¬ LeftOutFile "f.na".toList
    exact not_leftOutFile.2 (by decide +kernel)
  · rw [Ex.compare_dirOf, show rawDiffs 0 (fileLines Ex.fileA) (fileLines Ex.fileB) =
      [{ number := 2, first := "abc\n".toList, second := "xyz\n".toList }] by decide +kernel]
    rfl

/-- C70 does not hold for lines that only one of the files has: nothing is reported. -/
theorem C70_fails : compareNA "d".toList (some (Ex.dirOf Ex.fileA)) (some (Ex.dirOf (Ex.fileA ++ "9 9\n".toList))) =
    .ok [] := by
  rw [Ex.compare_dirOf, show rawDiffs 0 (fileLines Ex.fileA) (fileLines (Ex.fileA ++ "9 9\n".toList)) = [] by
    decide +kernel]
  rfl

end Nappy.Props
