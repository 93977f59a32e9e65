import Verif.TextLemmas
import Verif.FFI2

/-! Properties C01-C05: reading items from lines. -/

namespace Nappy.Props

open Nappy Spec

/-! ### C01 -/

/-- C01. Reading a line keeps the prefix of a trailing brace annotation when there is one, and otherwise
keeps the whole line. -/
theorem C01_brace_annotation (line g : Str) : rightStrip line = g ↔ Bare line g :=
  (bare_iff line g).symm

/-- C01. The prefix is determined by the line: there is at most one annotation to remove. -/
theorem C01_brace_unique (line g g' : Str) (h : BraceMatch line g) (h' : BraceMatch line g') :
    g = g' := braceMatch_unique h h'

/-- C01. What is kept is always a prefix of the line. -/
theorem C01_prefix (line : Str) : ∃ suf, line = rightStrip line ++ suf := by
  rcases rightStrip_cases line with ⟨b, w, e, _⟩ | h
  · exact ⟨_, e⟩
  · exact ⟨[], by rw [h]; simp⟩

example : BraceMatch "3 4 {NV}  \n".toList "3 4 ".toList :=
  ⟨"NV".toList, "  \n".toList, by decide, by decide, by decide, by decide, by decide⟩
example : rightStrip "3 4 {NV}  \n".toList = "3 4 ".toList := by decide
example : rightStrip "{NV}\n".toList = "{NV}\n".toList := by decide
example : rightStrip "a {x} b\n".toList = "a {x} b\n".toList := by decide
example : rightStrip "a {x^2}\n".toList = "a {x^2}\n".toList := by decide

/-! ### C02 -/

/-- C02. A successful read of a line that must hold `n >= 1` items returns `n` values: the conversions of
the words on the line, in order. A blank line counts as one empty item. -/
theorem C02_fixed_count {β : Type} (line : Str) (n : Int) (conv : Str → Res β) (vals : List β)
    (hn : 1 ≤ n) (h : readItemsFromLine line n conv = .ok vals) :
    (vals.length : Int) = n ∧
      ((∃ ts, LineWords line ts ∧ ts ≠ [] ∧ mapRes conv ts = .ok vals) ∨
       (LineWords line [] ∧ n = 1 ∧ mapRes conv [[]] = .ok vals)) := by
  rw [readItemsFromLine_eq] at h
  by_cases h0 : lineItems line = []
  · rw [h0] at h
    simp only [ne_eq, if_true, List.length_cons, List.length_nil] at h
    split at h
    · cases h
    · rename_i hc
      have hn1 : n = 1 := by
        by_cases hn1 : n = 1
        · exact hn1
        · exact absurd ⟨by omega, by omega⟩ hc
      refine ⟨?_, Or.inr ⟨(lineWords_iff _ _).2 h0, hn1, h⟩⟩
      rw [mapRes_ok_length _ _ _ h, hn1]; rfl
  · simp only [ne_eq, if_neg h0] at h
    split at h
    · cases h
    · rename_i hc
      have hn1 : ((lineItems line).length : Int) = n := by
        by_cases hn1 : ((lineItems line).length : Int) = n
        · exact hn1
        · exact absurd ⟨by omega, hn1⟩ hc
      refine ⟨?_, Or.inl ⟨_, (lineWords_iff _ _).2 rfl, h0, h⟩⟩
      rw [mapRes_ok_length _ _ _ h]; exact hn1

/-- C02. A line with `n` words is read as these `n` words; with another number of words reading
raises. -/
theorem C02_fixed_count_complete {β : Type} (line : Str) (ts : List Str) (n : Int)
    (conv : Str → Res β) (hn : 1 ≤ n) (hts : ts ≠ []) (h : LineWords line ts) :
    readItemsFromLine line n conv =
      if (ts.length : Int) = n then mapRes conv ts else .error .exn := by
  rw [readItemsFromLine_eq, (lineWords_iff _ _).1 h]
  simp only [if_neg hts]
  by_cases h1 : (ts.length : Int) = n
  · rw [if_pos h1, if_neg (by rintro ⟨_, h2⟩; exact h2 h1)]
  · rw [if_neg h1, if_pos ⟨by omega, h1⟩]

example : readItemsFromLine " 1  2 {IVOL NVOL}\n".toList 2 pyInt = .ok [1, 2] := by decide
example : readItemsFromLine "1 2 3\n".toList 2 pyInt = .error .exn := by decide

/-! ### C03

The full claim is that exactly `n` items come back or an exception is raised. It is false: the code
takes up to `n` items from every line, not up to the number still missing. -/

/-- The full claim of C03 about the reader of items spread over lines. -/
def C03_claim : Prop :=
  ∀ (n : Int) (lines rest : List Str) (vals : List Int), 0 < n →
    readUnkList n pyInt lines = .ok (vals, rest) → (vals.length : Int) = n

/-- C03 is false: reading three items from the lines `1 2` and `3 4` returns four. -/
theorem C03_false : ¬ C03_claim := by
  intro h
  have := h 3 ["1 2\n".toList, "3 4\n".toList] [] [1, 2, 3, 4] (by decide) (by decide)
  exact absurd this (by decide)

/-- C03, what does hold. A read succeeds exactly when the object starts with some lines holding fewer
than `n` items, then a line with at most `n` items that brings the total to `n` or more, and all items
convert. All items of these lines are returned, in order; the rest of the object is left.
Missing: the returned number of items can exceed `n` (but is below `2 n`). -/
theorem C03_unknown_lines_partial {β : Type} (n : Int) (conv : Str → Res β) (lines rest : List Str)
    (vals : List β) :
    readUnkList n conv lines = .ok (vals, rest) ↔
      0 < n ∧ ∃ pre l, ∃ (pw : List (List Str)) (lw : List Str),
        lines = pre ++ l :: rest ∧ List.Forall₂ LineWords pre pw ∧ LineWords l lw ∧
        (pw.flatten.length : Int) < n ∧ n ≤ (pw.flatten ++ lw).length ∧ (lw.length : Int) ≤ n ∧
        mapRes conv (pw.flatten ++ lw) = .ok vals := by
  have hf : ∀ pre : List Str, List.Forall₂ LineWords pre (pre.map lineItems) := by
    intro pre
    induction pre with
    | nil => exact .nil
    | cons a t ih => exact .cons ((lineWords_iff _ _).2 rfl) ih
  have hf' : ∀ (pre : List Str) (pw : List (List Str)), List.Forall₂ LineWords pre pw →
      pw = pre.map lineItems := by
    intro pre pw h
    induction h with
    | nil => rfl
    | cons h _ ih => rw [List.map_cons, ← ih, (lineWords_iff _ _).1 h]
  rw [readUnkList, readUnk_ok_iff]
  constructor
  · rintro ⟨hn, pre, l, h1, h2, h3, h4, h5⟩
    exact ⟨hn, pre, l, pre.map lineItems, lineItems l, h1, hf pre, (lineWords_iff _ _).2 rfl, h2,
      by simpa [allItems] using h3, h4, by simpa [allItems] using h5⟩
  · rintro ⟨hn, pre, l, pw, lw, h1, hp, hl, h2, h3, h4, h5⟩
    rw [hf' pre pw hp] at h2 h3 h5
    rw [← (lineWords_iff _ _).1 hl] at h3 h4 h5
    exact ⟨hn, pre, l, h1, h2, by simpa [allItems] using h3, h4, by simpa [allItems] using h5⟩

/-- C03, bound on the surplus: fewer than `2 n` items come back. -/
theorem C03_surplus_bound_partial {β : Type} (n : Int) (conv : Str → Res β) (lines rest : List Str)
    (vals : List β) (h : readUnkList n conv lines = .ok (vals, rest)) :
    n ≤ vals.length ∧ (vals.length : Int) < 2 * n := by
  obtain ⟨hn, pre, l, h1, h2, h3, h4, h5⟩ := (readUnk_ok_iff _ _ _ _ _ _).1 h
  rw [mapRes_ok_length _ _ _ h5]
  simp at h3 ⊢; omega

/-- C03: a non-positive count always raises. -/
theorem C03_nonpositive {β : Type} (n : Int) (conv : Str → Res β) (lines : List Str) (hn : n ≤ 0) :
    readUnkList n conv lines = .error .unbound := by
  simp [readUnkList, readUnk, hn]

example : readUnkList 3 pyInt ["1 2\n".toList, "3\n".toList, "4\n".toList]
    = .ok ([1, 2, 3], ["4\n".toList]) := by decide
example : readUnkList 2 pyInt ["1 2 3\n".toList] = .error .exn := by decide

/-! ### C04 -/

/-- C04. However the items of a record are laid out over lines - any white space, blank lines, brace
annotations - as long as its last line ends with the record, the same values are returned and reading
stops right after that line. Holds for a list of lines and for a file. -/
theorem C04_layout {β : Type} (items : List Str) (conv : Str → Res β) (vals : List β)
    (lines : List Str) (groups : List (List Str)) (last : Str) (lastGroup : List Str)
    (rest : List Str)
    (hlines : List.Forall₂ LineWords lines groups) (hlast : LineWords last lastGroup)
    (hne : lastGroup ≠ []) (hitems : items = groups.flatten ++ lastGroup)
    (hconv : mapRes conv items = .ok vals) :
    readUnkList items.length conv (lines ++ last :: rest) = .ok (vals, rest) ∧
    readUnkFile items.length conv (lines ++ last :: rest) = .ok (vals, rest) := by
  have hf' : ∀ (pre : List Str) (pw : List (List Str)), List.Forall₂ LineWords pre pw →
      pw.flatten = allItems pre := by
    intro pre pw h
    induction h with
    | nil => rfl
    | cons h _ ih => rw [List.flatten_cons, allItems_cons, ← ih, (lineWords_iff _ _).1 h]
  have hl := (lineWords_iff _ _).1 hlast
  have hlen : 0 < lastGroup.length := by cases lastGroup with
    | nil => exact absurd rfl hne
    | cons => simp
  rw [hf' _ _ hlines, ← hl] at hitems
  rw [← hl] at hlen
  have : ∀ eof, readUnk eof items.length conv (lines ++ last :: rest) = .ok (vals, rest) := by
    intro eof
    rw [readUnk_ok_iff]
    refine ⟨?_, lines, last, rfl, ?_, ?_, ?_, ?_⟩
    · subst hitems; simp; omega
    · subst hitems; simp; omega
    · subst hitems; simp
    · subst hitems; simp; omega
    · subst hitems; simpa using hconv
  exact ⟨this _, this _⟩

/-- A case of C04: three layouts of the same record. -/
example : readUnkList 3 pyInt ["1 2 3\n".toList, "9\n".toList]
      = .ok ([1, 2, 3], ["9\n".toList]) ∧
    readUnkList 3 pyInt ["1\n".toList, "\n".toList, "\t2   3 {x}\n".toList, "9\n".toList]
      = .ok ([1, 2, 3], ["9\n".toList]) := by decide

/-! ### C05

The full claim is that opening any file returns or raises. It is false: the loop that collects header
items from an open file does not notice the end of the file. -/

/-- The outcome `hang` of the model is a loop that is still running after any number of passes. -/
theorem C05_hang_is_divergence (n : Nat) (ls acc : List Str) (ex : Option (List Str))
    (hacc : acc.length < n) :
    unkGo .hang n ls acc = .error .hang ↔
      ∀ k, unkLoop n k { rest := ls, rtitems := acc, extras := ex } = none := by
  have hend : ∀ (k : Nat) (acc : List Str) (ex : Option (List Str)), acc.length < n →
      unkLoop n k { rest := [], rtitems := acc, extras := ex } = none := by
    intro k
    induction k with
    | zero => intro acc ex h; simp [unkLoop, h]
    | succ k ih =>
      intro acc ex h
      rw [unkLoop]
      simp only [if_pos h, unkBody, readline]
      have hi : lineItems [] = [] := by decide
      rw [hi]
      rw [List.take_nil, List.append_nil]; exact ih acc _ h
  induction ls generalizing acc ex with
  | nil => simp only [unkGo, true_iff]; exact fun k => hend k acc ex hacc
  | cons l ls ih =>
    rw [unkGo]
    by_cases h1 : (acc ++ (lineItems l).take n).length < n
    · rw [if_pos h1]
      refine (ih _ (some ((lineItems l).drop n)) h1).trans ?_
      constructor
      · intro h k
        cases k with
        | zero => simp [unkLoop, hacc]
        | succ k => rw [unkLoop]; simp only [if_pos hacc]; exact h k
      · intro h k
        have := h (k + 1)
        rw [unkLoop] at this; simp only [if_pos hacc] at this; exact this
    · rw [if_neg h1]
      constructor
      · intro h; split at h <;> cases h
      · intro h
        have := h 1
        rw [unkLoop] at this; simp only [if_pos hacc] at this
        rw [unkLoop] at this
        rw [if_neg (show ¬ (unkBody n { rest := l :: ls, rtitems := acc, extras := ex }).rtitems.length < n
          from h1)] at this
        cases this

/-- When the model says the loop ends, the unrolled loop ends in the same state. -/
theorem C05_return_is_termination (n : Nat) (ls acc items rest : List Str)
    (ex : Option (List Str)) (hacc : acc.length < n)
    (h : unkGo .hang n ls acc = .ok (items, rest)) :
    ∃ k, unkLoop n k { rest := ls, rtitems := acc, extras := ex }
      = some { rest := rest, rtitems := items, extras := some [] } := by
  induction ls generalizing acc ex with
  | nil => cases h
  | cons l ls ih =>
    rw [unkGo] at h
    by_cases h1 : (acc ++ (lineItems l).take n).length < n
    · rw [if_pos h1] at h
      obtain ⟨k, hk⟩ := ih _ (some ((lineItems l).drop n)) h1 h
      exact ⟨k + 1, by rw [unkLoop]; simp only [if_pos hacc]; exact hk⟩
    · rw [if_neg h1] at h
      split at h
      · cases h
      · rename_i h2
        injection h with h; injection h with h3 h4; subst h3 h4
        refine ⟨1, ?_⟩
        rw [unkLoop]; simp only [if_pos hacc, unkBody, readline]
        rw [unkLoop]
        rw [if_neg h1, Decidable.not_not.1 h2]

/-- The full claim of C05 for FFI 1001 files. -/
def C05_claim : Prop :=
  ∀ text : Str, ∀ ignore : Nat, readHeader1001 intCodec ignore (fileLines text) ≠ .error .hang

/-- A 1001 file cut off after the line with the number of variables. -/
def truncatedFile : Str :=
  ("20 1001\nname\norg\nsource\nmission\n1 1\n2000 1 1 2000 1 1\n0\ntime\n2\n").toList

/-- C05 is false: opening the truncated file never returns. -/
theorem C05_false : ¬ C05_claim := by
  intro h
  exact h truncatedFile 0 (by decide)

/-- C05, how general the failure is: in every format, a file that ends right after the line giving the
number of variables (at least one) makes the reader of the variables section run for ever. -/
theorem C05_truncated_after_nv {F : Type} (cd : Codec F) (line : Str) (nv : Int)
    (h : readItemInt line = .ok nv) (hnv : 0 < nv) : readVars cd [line] = .error .hang := by
  unfold readVars readIntLine
  simp only [readline, h, ok_bind]
  have hc : ∀ s, cd.float s ≠ .error .hang := by
    intro s; unfold Codec.float; split <;> simp
  rw [(readUnk_hang_iff nv cd.float [] hc).2 ⟨hnv, by simpa using hnv⟩]
  rfl

/-- C05, what does hold: reading `n` header items from an open file fails to return exactly when
`n >= 1` and fewer than `n` items are left in the whole rest of the file.
Missing: termination for files whose header is cut short. -/
theorem C05_open_returns_partial {β : Type} (n : Int) (conv : Str → Res β) (lines : List Str)
    (groups : List (List Str)) (hconv : ∀ s, conv s ≠ .error .hang)
    (hg : List.Forall₂ LineWords lines groups) :
    readUnkFile n conv lines = .error .hang ↔ 0 < n ∧ (groups.flatten.length : Int) < n := by
  have : groups.flatten = allItems lines := by
    induction hg with
    | nil => rfl
    | cons h _ ih => rw [List.flatten_cons, allItems_cons, ← ih, (lineWords_iff _ _).1 h]
  rw [this]; exact readUnk_hang_iff n conv lines hconv

/-- The hypotheses of C05_open_returns_partial are met, with both outcomes. -/
example : readUnkFile 2 pyInt ["1\n".toList] = .error .hang ∧
    readUnkFile 2 pyInt ["1\n".toList, "2\n".toList] = .ok ([1, 2], []) := by decide

end Nappy.Props
