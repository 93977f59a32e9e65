import Verif.PyLemmas
import Verif.TextParser
import Verif.Spec.Text

/-! Lemmas about lines, words and the item readers. -/

namespace Nappy

open Spec

theorem spells_words {s : Str} {ts : List Str} (h : Spells s ts) : words s = ts := by
  induction h with
  | nil ws h => exact words_spaces ws h
  | last ws t h ht => rw [words_spaces_append _ _ h, words_token _ ht.1 ht.2]
  | cons ws t sep rest ts h ht hne hs _ ih =>
    rw [List.append_assoc, List.append_assoc, words_spaces_append _ _ h, words_sep _ _ _ hne hs,
      words_token _ ht.1 ht.2, ih]; rfl

theorem spells_space_cons {c : Char} {s : Str} {ts : List Str} (hc : isSpace c = true)
    (h : Spells s ts) : Spells (c :: s) ts := by
  cases h with
  | nil _ h => exact .nil _ (by intro x hx; simp at hx; rcases hx with rfl | hx; exact hc; exact h x hx)
  | last ws t h ht =>
    exact .last (c :: ws) t (by intro x hx; simp at hx; rcases hx with rfl | hx; exact hc; exact h x hx) ht
  | cons ws t sep rest ts h ht hne hs hr =>
    exact .cons (c :: ws) t sep rest ts
      (by intro x hx; simp at hx; rcases hx with rfl | hx; exact hc; exact h x hx) ht hne hs hr

theorem spells_char_cons {c : Char} {s : Str} {ts : List Str} (hc : isSpace c = false)
    (h : Spells s ts) : ∃ us, Spells (c :: s) us := by
  have hw : Word [c] := ⟨by simp, by simpa using hc⟩
  have hn : Blank [] := by intro x hx; simp at hx
  cases h with
  | nil _ h =>
    cases s with
    | nil => exact ⟨_, .last [] [c] hn hw⟩
    | cons d s =>
      have := Spells.cons [] [c] (d :: s) [] [] hn hw (by simp) h (.nil [] hn)
      exact ⟨_, by simpa using this⟩
  | last ws t h ht =>
    cases ws with
    | nil =>
      have hw' : Word (c :: t) := ⟨by simp, by
        intro x hx; simp at hx; rcases hx with rfl | hx; exact hc; exact ht.2 x hx⟩
      exact ⟨_, .last [] (c :: t) hn hw'⟩
    | cons d ws =>
      have := Spells.cons [] [c] (d :: ws) t [t] hn hw (by simp) h (.last [] t hn ht)
      exact ⟨_, by simpa using this⟩
  | cons ws t sep rest ts h ht hne hs hr =>
    cases ws with
    | nil =>
      have hw' : Word (c :: t) := ⟨by simp, by
        intro x hx; simp at hx; rcases hx with rfl | hx; exact hc; exact ht.2 x hx⟩
      exact ⟨_, .cons [] (c :: t) sep rest ts hn hw' hne hs hr⟩
    | cons d ws =>
      have := Spells.cons [] [c] (d :: ws) (t ++ sep ++ rest) (t :: ts) hn hw (by simp) h
        (.cons [] t sep rest ts hn ht hne hs hr)
      exact ⟨_, by simpa using this⟩

theorem spells_exists (s : Str) : ∃ ts, Spells s ts := by
  induction s with
  | nil => exact ⟨[], .nil [] (by intro x hx; simp at hx)⟩
  | cons c s ih =>
    obtain ⟨ts, h⟩ := ih
    by_cases hc : isSpace c = true
    · exact ⟨ts, spells_space_cons hc h⟩
    · exact spells_char_cons (by simpa using hc) h

theorem spells_iff (s : Str) (ts : List Str) : Spells s ts ↔ words s = ts := by
  refine ⟨spells_words, fun h => ?_⟩
  obtain ⟨us, hu⟩ := spells_exists s
  rw [spells_words hu] at h; rw [← h]; exact hu

/-! ### braces -/

theorem rightStrip_of_match {line g : Str} (h : BraceMatch line g) : rightStrip line = g := by
  obtain ⟨body, ws, rfl, hg, hn, hb, hw⟩ := h
  unfold rightStrip
  have h1 : (g ++ '{' :: (body ++ '}' :: ws)).reverse
      = ws.reverse ++ '}' :: (body.reverse ++ '{' :: g.reverse) := by simp
  rw [h1, dropWhile_append_all isSpace ws.reverse _ (by intro c hc; exact hw c (by simpa using hc))]
  have h2 : ('}' :: (body.reverse ++ '{' :: g.reverse)).dropWhile isSpace
      = '}' :: (body.reverse ++ '{' :: g.reverse) :=
    dropWhile_eq_self _ _ (by intro c t e; injection e with e _; subst e; decide)
  rw [h2]
  have h3 : (body.reverse ++ '{' :: g.reverse).dropWhile braceBody = '{' :: g.reverse := by
    rw [dropWhile_append_all braceBody body.reverse _ (by
      intro c hc; obtain ⟨h1, h2, h3⟩ := hb c (by simpa using hc); simp [braceBody, h1, h2, h3])]
    exact dropWhile_eq_self _ _ (by intro c t e; injection e with e _; subst e; decide)
  simp only [h3]
  rw [if_pos (by simpa using ⟨hg, hn⟩)]
  simp

theorem rightStrip_cases (line : Str) : BraceMatch line (rightStrip line) ∨ rightStrip line = line := by
  unfold rightStrip
  split
  · rename_i r hr
    split
    · rename_i g hg
      by_cases hc : g ≠ [] ∧ '\n' ∉ g
      · left
        rw [if_pos hc]
        obtain ⟨pre, h1, h2⟩ := dropWhile_split isSpace line.reverse
        obtain ⟨bd, h3, h4⟩ := dropWhile_split braceBody r
        rw [hr] at h1; rw [hg] at h3
        refine ⟨bd.reverse, pre.reverse, ?_, by simpa using hc.1, by simpa using hc.2, ?_, ?_⟩
        · have := congrArg List.reverse h1
          rw [h3] at this
          simpa using this
        · intro c hc
          have := h4 c (by simpa using hc)
          simp only [braceBody, Bool.and_eq_true, bne_iff_ne] at this
          exact ⟨this.1.1, this.1.2, this.2⟩
        · intro c hc; exact h2 c (by simpa using hc)
      · right; rw [if_neg hc]
    · right; rfl
  · right; rfl

theorem braceMatch_unique {line g g' : Str} (h : BraceMatch line g) (h' : BraceMatch line g') :
    g = g' := by rw [← rightStrip_of_match h, rightStrip_of_match h']

theorem braceMatch_ne {line : Str} (h : BraceMatch line line) : False := by
  obtain ⟨b, w, e, _⟩ := h
  have := congrArg List.length e
  simp at this

theorem bare_iff (line g : Str) : Bare line g ↔ rightStrip line = g := by
  constructor
  · rintro (h | ⟨rfl, h⟩)
    · exact rightStrip_of_match h
    · rcases rightStrip_cases g with h' | h'
      · exact absurd h' (h _)
      · exact h'
  · intro h
    rcases rightStrip_cases line with h' | h'
    · left; rw [← h]; exact h'
    · by_cases hm : ∃ g', BraceMatch line g'
      · obtain ⟨g', hg⟩ := hm
        have := rightStrip_of_match hg
        rw [h'] at this; rw [← this] at hg
        exact absurd hg braceMatch_ne
      · right; exact ⟨by rw [← h, h'], fun g' hg => hm ⟨g', hg⟩⟩

/-- A line that does not end in `}` (white space aside), or has no `{`, is left alone. -/
theorem rightStrip_id (line : Str) (h : '{' ∉ line ∨ '}' ∉ line) : rightStrip line = line := by
  rcases rightStrip_cases line with ⟨b, w, e, _⟩ | h'
  · rcases h with h | h
    · exact absurd (by rw [e]; simp) h
    · exact absurd (by rw [e]; simp) h
  · exact h'

theorem lineItems_eq (line : Str) : lineItems line = words (rightStrip line) := by
  unfold lineItems; rw [words_strip]

theorem lineWords_iff (line : Str) (ts : List Str) : LineWords line ts ↔ lineItems line = ts := by
  rw [lineItems_eq]
  constructor
  · rintro ⟨g, hg, hs⟩
    rw [(bare_iff _ _).1 hg]; exact spells_words hs
  · intro h; exact ⟨_, (bare_iff _ _).2 rfl, (spells_iff _ _).2 h⟩

/-! ### item readers -/

theorem reSplitWs_eq (s : Str) : reSplitWs (strip s) = if words s = [] then [[]] else words s := by
  by_cases h : words s = []
  · rw [if_pos h, (words_eq_nil_iff s).1 h]; rfl
  · rw [if_neg h, reSplitWs_trimmed _ (strip_trimmed s), words_strip]
    intro e; exact h ((words_eq_nil_iff s).2 e)

theorem readItemsFromLine_eq {β : Type} (line : Str) (n : Int) (conv : Str → Res β) :
    readItemsFromLine line n conv =
      (let items := if lineItems line = [] then [[]] else lineItems line
       if n ≠ 0 ∧ (items.length : Int) ≠ n then .error .exn else mapRes conv items) := by
  unfold readItemsFromLine
  simp only [reSplitWs_eq, lineItems_eq]

/-- All items on a list of lines. -/
def allItems (ls : List Str) : List Str := (ls.map lineItems).flatten

@[simp] theorem allItems_nil : allItems [] = [] := rfl
@[simp] theorem allItems_cons (l : Str) (ls : List Str) : allItems (l :: ls) = lineItems l ++ allItems ls := rfl
@[simp] theorem allItems_append (a b : List Str) : allItems (a ++ b) = allItems a ++ allItems b := by
  simp [allItems]

/-- Exact description of an accepted multi-line record. -/
theorem unkGo_ok_iff (eof : Err) (n : Nat) (ls acc items rest : List Str) (hacc : acc.length < n) :
    unkGo eof n ls acc = .ok (items, rest) ↔
      ∃ pre l, ls = pre ++ l :: rest ∧ (acc ++ allItems pre).length < n ∧
        n ≤ (acc ++ allItems pre ++ lineItems l).length ∧ (lineItems l).length ≤ n ∧
        items = acc ++ allItems pre ++ lineItems l := by
  induction ls generalizing acc with
  | nil => simp [unkGo]
  | cons l ls ih =>
    rw [unkGo]
    by_cases h1 : (acc ++ (lineItems l).take n).length < n
    · rw [if_pos h1, ih _ h1]
      have h2 : (lineItems l).take n = lineItems l := by
        apply List.take_of_length_le; simp at h1; omega
      rw [h2]
      rw [h2] at h1
      constructor
      · rintro ⟨pre, l', rfl, h3, h4, h5, h6⟩
        refine ⟨l :: pre, l', rfl, by simpa using h3, by simpa using h4, h5, by simpa using h6⟩
      · rintro ⟨pre, l', e, h3, h4, h5, h6⟩
        cases pre with
        | nil =>
          simp at e; obtain ⟨rfl, rfl⟩ := e
          simp at h4 h1; omega
        | cons p pre =>
          simp at e; obtain ⟨rfl, rfl⟩ := e
          refine ⟨pre, l', rfl, by simpa using h3, by simpa using h4, h5, by simpa using h6⟩
    · rw [if_neg h1]
      by_cases h2 : (lineItems l).drop n ≠ []
      · rw [if_pos h2]
        constructor
        · intro h; cases h
        · rintro ⟨pre, l', e, h3, h4, h5, h6⟩
          have hl : n < (lineItems l).length := by
            rcases Nat.lt_or_ge n (lineItems l).length with h | h
            · exact h
            · exact absurd (List.drop_eq_nil_of_le h) h2
          cases pre with
          | nil => simp at e; obtain ⟨rfl, rfl⟩ := e; omega
          | cons p pre => simp at e; obtain ⟨rfl, rfl⟩ := e; simp at h3; omega
      · rw [if_neg h2]
        have h2' : (lineItems l).length ≤ n := by
          have := Decidable.not_not.1 h2; simpa using this
        have h3 : (lineItems l).take n = lineItems l := List.take_of_length_le h2'
        rw [h3] at h1 ⊢
        constructor
        · intro h; injection h with h; injection h with h4 h5
          subst h4 h5
          exact ⟨[], l, rfl, by simpa using hacc, by simp at h1 ⊢; omega, h2', by simp⟩
        · rintro ⟨pre, l', e, h4, h5, h6, h7⟩
          cases pre with
          | nil => simp at e; obtain ⟨rfl, rfl⟩ := e; rw [h7]; simp
          | cons p pre => simp at e; obtain ⟨rfl, rfl⟩ := e; simp at h4 h1; omega

/-- The lines run out exactly when they hold too few items. -/
theorem unkGo_eof_iff (eof : Err) (heof : eof ≠ .exn) (n : Nat) (ls acc : List Str)
    (hacc : acc.length < n) :
    unkGo eof n ls acc = .error eof ↔ (acc ++ allItems ls).length < n := by
  induction ls generalizing acc with
  | nil => simp [unkGo, hacc]
  | cons l ls ih =>
    rw [unkGo]
    by_cases h1 : (acc ++ (lineItems l).take n).length < n
    · rw [if_pos h1, ih _ h1]
      have h2 : (lineItems l).take n = lineItems l := by
        apply List.take_of_length_le; simp at h1; omega
      rw [h2]; simp
    · rw [if_neg h1]
      have : ¬ (acc ++ allItems (l :: ls)).length < n := by simp at h1 ⊢; omega
      constructor
      · intro h
        split at h
        · injection h with h; exact absurd h.symm heof
        · cases h
      · intro h; exact absurd h this

/-- The other outcome of the loop: surplus items on the last line. -/
theorem unkGo_cases (eof : Err) (n : Nat) (ls acc : List Str) :
    unkGo eof n ls acc = .error eof ∨ unkGo eof n ls acc = .error .exn ∨
      ∃ r, unkGo eof n ls acc = .ok r := by
  induction ls generalizing acc with
  | nil => left; rfl
  | cons l ls ih =>
    rw [unkGo]
    split
    · exact ih _
    · split
      · right; left; rfl
      · right; right; exact ⟨_, rfl⟩

theorem readUnk_ok_iff {β : Type} (eof : Err) (n : Int) (conv : Str → Res β) (ls rest : List Str)
    (vals : List β) :
    readUnk eof n conv ls = .ok (vals, rest) ↔
      0 < n ∧ ∃ pre l, ls = pre ++ l :: rest ∧ ((allItems pre).length : Int) < n ∧
        n ≤ (allItems (pre ++ [l])).length ∧ ((lineItems l).length : Int) ≤ n ∧
        mapRes conv (allItems (pre ++ [l])) = .ok vals := by
  unfold readUnk
  by_cases hn : n ≤ 0
  · rw [if_pos hn]
    constructor
    · intro h; cases h
    · rintro ⟨h, _⟩; omega
  · rw [if_neg hn]
    have hn' : 0 < n := by omega
    constructor
    · intro h
      cases h1 : unkGo eof n.toNat ls [] with
      | error e => rw [h1] at h; cases h
      | ok r =>
        obtain ⟨items, rest'⟩ := r
        rw [h1] at h
        simp only [ok_bind] at h
        cases h2 : mapRes conv items with
        | error e => rw [h2] at h; cases h
        | ok vs =>
          rw [h2] at h; simp only [ok_bind] at h
          injection h with h; injection h with h3 h4
          subst h3 h4
          obtain ⟨pre, l, h5, h6, h7, h8, h9⟩ := (unkGo_ok_iff eof n.toNat ls [] items rest' (by simp; omega)).1 h1
          simp only [List.nil_append] at h6 h7 h9
          refine ⟨hn', pre, l, h5, by omega, ?_, by omega, ?_⟩
          · simp at h7 ⊢; omega
          · subst h9; simpa using h2
    · rintro ⟨_, pre, l, h5, h6, h7, h8, h9⟩
      have h1 := (unkGo_ok_iff eof n.toNat ls [] (allItems (pre ++ [l])) rest (by simp; omega)).2
        ⟨pre, l, h5, by simp; omega, by simp at h7 ⊢; omega, by omega, by simp⟩
      rw [h1]; simp only [ok_bind]; rw [h9]; rfl

theorem readUnk_hang_iff {β : Type} (n : Int) (conv : Str → Res β) (ls : List Str)
    (hconv : ∀ s, conv s ≠ .error .hang) :
    readUnkFile n conv ls = .error .hang ↔ 0 < n ∧ ((allItems ls).length : Int) < n := by
  have hm : ∀ items, mapRes conv items ≠ .error .hang := by
    intro items
    induction items with
    | nil => simp [mapRes]
    | cons a t ih =>
      simp only [mapRes]
      cases h1 : conv a with
      | error e => intro h; simp at h; exact hconv a (by rw [h1, h])
      | ok b =>
        simp only [ok_bind]
        cases h2 : mapRes conv t with
        | error e => intro h; simp at h; exact ih (by rw [h2, h])
        | ok bs => simp
  unfold readUnkFile readUnk
  by_cases hn : n ≤ 0
  · rw [if_pos hn]; constructor
    · intro h; cases h
    · intro h; omega
  · rw [if_neg hn]
    have key := unkGo_eof_iff .hang (by decide) n.toNat ls [] (by simp; omega)
    simp only [List.nil_append] at key
    constructor
    · intro h
      refine ⟨by omega, ?_⟩
      have : unkGo .hang n.toNat ls [] = .error .hang := by
        rcases unkGo_cases .hang n.toNat ls [] with h1 | h1 | ⟨r, h1⟩
        · exact h1
        · rw [h1] at h; cases h
        · rw [h1] at h; simp only [ok_bind] at h
          cases h2 : mapRes conv r.1 with
          | error e => rw [h2] at h; simp at h; exact absurd (by rw [h2, h]) (hm r.1)
          | ok vs => rw [h2] at h; cases h
      have := key.1 this; omega
    · rintro ⟨_, h⟩
      rw [key.2 (by omega)]; rfl

end Nappy
