import Verif.Spec.Collect
import Verif.PyLemmas

/-! The pattern for `ONAME` and `ORG` in the attribute `institution`. -/

namespace Nappy

open Spec

theorem tryDown_eq {α : Type} {f : Nat → Option α} {lo k : Nat} {a : α} (hlo : lo ≤ k) (hk : f k = some a) :
    ∀ n, k ≤ n → (∀ j, k < j → j ≤ n → f j = none) → tryDown f lo n = some a
  | 0, h, _ => by
    obtain rfl : k = 0 := by omega
    obtain rfl : lo = 0 := by omega
    simp [tryDown, hk]
  | n + 1, h, hno => by
    rw [tryDown, if_neg (by omega)]
    by_cases e : k = n + 1
    · subst e
      rw [hk]
    · rw [hno (n + 1) (by omega) (by omega)]
      exact tryDown_eq hlo hk n (by omega) (fun j h1 h2 => hno j h1 (by omega))

theorem tryDown_none {α : Type} {f : Nat → Option α} {lo : Nat} :
    ∀ n, (∀ j, lo ≤ j → j ≤ n → f j = none) → tryDown f lo n = none
  | 0, h => by
    rw [tryDown]
    split
    · exact h 0 (by omega) (by omega)
    · rfl
  | n + 1, h => by
    rw [tryDown]
    split
    · rfl
    · rw [h (n + 1) (by omega) (by omega)]
      exact tryDown_none n (fun j h1 h2 => h j h1 (by omega))

theorem tryDown_some {α : Type} {f : Nat → Option α} {lo : Nat} {a : α} :
    ∀ n, tryDown f lo n = some a → ∃ k, lo ≤ k ∧ k ≤ n ∧ f k = some a
  | 0, h => by
    rw [tryDown] at h
    split at h
    · exact ⟨0, by omega, by omega, h⟩
    · cases h
  | n + 1, h => by
    rw [tryDown] at h
    split at h
    · cases h
    · split at h
      · next b e => injection h with h; subst h; exact ⟨n + 1, by omega, by omega, e⟩
      · obtain ⟨k, h1, h2, h3⟩ := tryDown_some n h
        exact ⟨k, h1, by omega, h3⟩

/-- White space and then a literal text: the text stands at least one place on. -/
theorem matchPats_ws_lit {ps : List Pat} {l s : Str} {r : List Str} (h : matchPats (.ws :: .lit l :: ps) s = some r) :
    ∃ w, 1 ≤ w ∧ l.isPrefixOf (s.drop w) = true := by
  rw [matchPats] at h
  obtain ⟨w, h1, _, h3⟩ := tryDown_some _ h
  refine ⟨w, h1, ?_⟩
  rw [matchPats] at h3
  split at h3
  · assumption
  · cases h3

/-- The markers. -/
def onameMark : Str := "(ONAME from NASA Ames file);".toList
def orgMark : Str := "(ORG from NASA Ames file).".toList

/-- A text that begins with a bracket and has no other: no second copy of it begins inside the first. -/
theorem prefix_drop_head {l s : Str} {c : Char} {t : Str} (hl : l = c :: t) {k : Nat}
    (h : l.isPrefixOf (s.drop k) = true) : s[k]? = some c := by
  subst hl
  cases hs : s.drop k with
  | nil => rw [hs] at h; simp at h
  | cons d u =>
    rw [hs] at h
    simp only [List.isPrefixOf, Bool.and_eq_true, beq_iff_eq] at h
    have : (s.drop k)[0]? = some d := by rw [hs]; rfl
    rw [List.getElem?_drop] at this
    simpa [h.1] using this

theorem prefix_get {l s : Str} {k j : Nat} (h : l.isPrefixOf (s.drop k) = true) (hj : j < l.length) :
    s[k + j]? = l[j]? := by
  rw [List.isPrefixOf_iff_prefix] at h
  obtain ⟨t, ht⟩ := h
  rw [← List.getElem?_drop, ← ht, List.getElem?_append_left hj]

theorem onameMark_inner : ∀ j, j < 28 → 1 ≤ j → onameMark[j]? ≠ some '(' := by decide +kernel

theorem orgTail_no_oname : ∀ m, m < 27 → onameMark.isPrefixOf ((' ' :: orgMark).drop m) = false := by
  decide +kernel

theorem orgTail_no_org : ∀ m, m < 27 → m ≠ 1 → orgMark.isPrefixOf ((' ' :: orgMark).drop m) = false := by
  decide +kernel

theorem orgMark_length : orgMark.length = 26 := by decide
theorem onameMark_length : onameMark.length = 28 := by decide

/-- No copy of the first marker behind the first one. -/
theorem no_later_oname {org : Str} (ho : ¬ Occurs onameMark org) {k : Nat} (hk : 1 ≤ k) :
    onameMark.isPrefixOf ((onameMark ++ ' ' :: (org ++ ' ' :: orgMark)).drop k) = false := by
  rw [Bool.eq_false_iff]
  intro h
  have hhead := prefix_drop_head (c := '(') (t := onameMark.tail) (by decide) h
  by_cases h1 : k < 28
  · rw [List.getElem?_append_left (by rw [onameMark_length]; exact h1)] at hhead
    exact onameMark_inner k h1 hk hhead
  · have e : (onameMark ++ ' ' :: (org ++ ' ' :: orgMark)).drop k
        = (' ' :: (org ++ ' ' :: orgMark)).drop (k - 28) := by
      rw [List.drop_append, List.drop_of_length_le (by rw [onameMark_length]; omega), onameMark_length]
      rfl
    rw [e] at h
    cases hj : k - 28 with
    | zero =>
      rw [hj, show onameMark = '(' :: onameMark.tail from by decide] at h
      simp [List.isPrefixOf] at h
    | succ i =>
      rw [hj, List.drop_succ_cons] at h
      by_cases hi : i < org.length
      · by_cases h2 : i + 28 ≤ org.length
        · refine ho ⟨org.take i, org.drop (i + 28), ?_⟩
          rw [List.isPrefixOf_iff_prefix] at h
          obtain ⟨t, ht⟩ := h
          have e1 : (org.drop i).take 28 = onameMark := by
            have := congrArg (List.take 28) ht
            rw [List.take_append_of_le_length (by rw [onameMark_length]; omega), ← onameMark_length, List.take_length,
              onameMark_length, List.drop_append_of_le_length (by omega),
              List.take_append_of_le_length (by rw [List.length_drop]; omega)] at this
            exact this.symm
          rw [← e1, List.append_assoc, ← List.drop_drop, List.take_append_drop, List.take_append_drop]
        · have g1 : (org ++ ' ' :: orgMark)[org.length]? = some ' ' := by simp
          have g2 : (org ++ ' ' :: orgMark)[org.length + 1]? = some '(' := by
            rw [List.getElem?_append_right (by omega), Nat.add_sub_cancel_left]; rfl
          by_cases h3 : i + 27 = org.length
          · have := prefix_get (j := 27) h (by rw [onameMark_length]; omega)
            rw [h3, g1] at this
            exact absurd this (by decide)
          · have := prefix_get (j := org.length + 1 - i) h (by rw [onameMark_length]; omega)
            rw [show i + (org.length + 1 - i) = org.length + 1 by omega, g2] at this
            exact onameMark_inner _ (by omega) (by omega) this.symm
      · rw [List.drop_append, List.drop_of_length_le (by omega), List.nil_append] at h
        by_cases h4 : i - org.length < 27
        · rw [orgTail_no_oname _ h4] at h
          cases h
        · rw [List.drop_of_length_le (by simp [orgMark_length]; omega)] at h
          exact absurd h (by decide)

/-- No copy of the second marker behind the last one. -/
theorem no_later_org {org : Str} {k : Nat} (hk : org.length + 2 ≤ k) :
    orgMark.isPrefixOf ((org ++ ' ' :: orgMark).drop k) = false := by
  rw [List.drop_append, List.drop_of_length_le (by omega), List.nil_append]
  by_cases h4 : k - org.length < 27
  · exact orgTail_no_org _ h4 (by omega)
  · rw [List.drop_of_length_le (by simp [orgMark_length]; omega)]
    decide

theorem takeWhile_all_length {p : Char → Bool} {l : Str} (h : ∀ c ∈ l, p c = true) :
    (l.takeWhile p).length = l.length := by
  induction l with
  | nil => rfl
  | cons c t ih =>
    rw [List.takeWhile_cons, if_pos (h c (by simp)), List.length_cons, ih (fun d hd => h d (by simp [hd])),
      List.length_cons]

/-- The second group. -/
theorem match_org {org : Str} (hn : '\n' ∉ org) :
    matchPats [.any, .ws, .lit orgMark] (org ++ ' ' :: orgMark) = some [org] := by
  rw [matchPats]
  have hlen : ((org ++ ' ' :: orgMark).takeWhile (· != '\n')).length = org.length + 27 := by
    rw [takeWhile_all_length]
    · simp [orgMark_length]
    · intro c hc
      rw [List.mem_append] at hc
      rcases hc with hc | hc
      · simp only [bne_iff_ne]; rintro rfl; exact hn hc
      · have : ∀ c ∈ (' ' :: orgMark), (c != '\n') = true := by decide
        exact this c hc
  rw [hlen]
  refine tryDown_eq (Nat.zero_le _) (k := org.length) ?_ _ (by omega) ?_
  · rw [List.drop_left, List.take_left]
    rw [show matchPats [.ws, .lit orgMark] (' ' :: orgMark) = some [] from by decide +kernel]
    rfl
  · intro j h1 h2
    cases hm : matchPats [.ws, .lit orgMark] ((org ++ ' ' :: orgMark).drop j) with
    | none => rfl
    | some r =>
      obtain ⟨w, w1, w2⟩ := matchPats_ws_lit hm
      rw [List.drop_drop, no_later_org (by omega)] at w2
      cases w2

/-- Behind the first marker. -/
theorem match_rest {org : Str} (hn : '\n' ∉ org) (hs : ∀ c ∈ org.head?, isSpace c = false) :
    matchPats [.ws, .any, .ws, .lit orgMark] (' ' :: (org ++ ' ' :: orgMark)) = some [org] := by
  rw [matchPats]
  cases org with
  | nil => decide +kernel
  | cons c t =>
    have hc : isSpace c = false := hs c rfl
    have : ((' ' :: (c :: t ++ ' ' :: orgMark)).takeWhile isSpace).length = 1 := by
      rw [List.takeWhile_cons, if_pos (by decide), List.cons_append, List.takeWhile_cons, hc]
      rfl
    rw [this]
    refine tryDown_eq (Nat.le_refl _) (k := 1) ?_ _ (by omega) (fun j h1 h2 => by omega)
    exact match_org hn

/-- The text that nappy makes of `ONAME` and `ORG`. -/
def institutionText (oname org : Str) : Str := oname ++ ' ' :: (onameMark ++ ' ' :: (org ++ ' ' :: orgMark))

theorem match_institution {oname org : Str} (h1 : '\n' ∉ oname) (h2 : '\n' ∉ org) (hs : ∀ c ∈ org.head?, isSpace c = false)
    (ho : ¬ Occurs onameMark org) :
    matchPats institutionPats (institutionText oname org) = some [oname, org] := by
  unfold institutionPats institutionText
  rw [matchPats]
  have hlen : ((oname ++ ' ' :: (onameMark ++ ' ' :: (org ++ ' ' :: orgMark))).takeWhile (· != '\n')).length
      = oname.length + 57 + org.length := by
    rw [takeWhile_all_length]
    · simp [orgMark_length, onameMark_length]; omega
    · intro c hc
      simp only [bne_iff_ne]
      rintro rfl
      simp only [List.mem_append, List.mem_cons] at hc
      rcases hc with hc | hc | hc | hc | hc | hc | hc
      · exact h1 hc
      · cases hc
      · exact absurd hc (by decide)
      · cases hc
      · exact h2 hc
      · cases hc
      · exact absurd hc (by decide)
  rw [hlen]
  refine tryDown_eq (Nat.zero_le _) (k := oname.length) ?_ _ (by omega) ?_
  · rw [List.drop_left, List.take_left]
    have : matchPats [.ws, .lit onameMark, .ws, .any, .ws, .lit orgMark]
        (' ' :: (onameMark ++ ' ' :: (org ++ ' ' :: orgMark))) = some [org] := by
      rw [matchPats]
      have : ((' ' :: (onameMark ++ ' ' :: (org ++ ' ' :: orgMark))).takeWhile isSpace).length = 1 := by
        rw [List.takeWhile_cons, if_pos (by decide),
          show onameMark = '(' :: onameMark.tail from by decide, List.cons_append, List.takeWhile_cons,
          show isSpace '(' = false from by decide]
        rfl
      rw [this]
      refine tryDown_eq (Nat.le_refl _) (k := 1) ?_ _ (by omega) (fun j h1 h2 => by omega)
      show matchPats (.lit onameMark :: _) (onameMark ++ ' ' :: (org ++ ' ' :: orgMark)) = _
      rw [matchPats, if_pos (by rw [List.isPrefixOf_iff_prefix]; exact List.prefix_append _ _), List.drop_left]
      exact match_rest h2 hs
    rw [show "(ONAME from NASA Ames file);".toList = onameMark from rfl,
      show "(ORG from NASA Ames file).".toList = orgMark from rfl, this]
    rfl
  · intro j k1 k2
    cases hm : matchPats [.ws, .lit onameMark, .ws, .any, .ws, .lit orgMark]
        ((oname ++ ' ' :: (onameMark ++ ' ' :: (org ++ ' ' :: orgMark))).drop j) with
    | none =>
      rw [show "(ONAME from NASA Ames file);".toList = onameMark from rfl,
        show "(ORG from NASA Ames file).".toList = orgMark from rfl, hm]
      rfl
    | some r =>
      obtain ⟨w, w1, w2⟩ := matchPats_ws_lit hm
      rw [List.drop_drop, List.drop_append, List.drop_of_length_le (by omega), List.nil_append,
        show j + w - oname.length = (j + w - oname.length - 1) + 1 by omega, List.drop_succ_cons,
        no_later_oname ho (by omega)] at w2
      cases w2

theorem unfoldLines_plain {s : Str} (h : '\n' ∉ s) : unfoldLines s = s := by
  induction s with
  | nil => rfl
  | cons c t ih =>
    simp only [List.mem_cons, not_or] at h
    have := ih h.2
    unfold unfoldLines at this ⊢
    rw [List.flatMap_cons, this, if_neg (fun e => h.1 e.symm)]
    rfl

/-- Without the first marker nothing matches. -/
theorem match_no_mark {s : Str} (h : ¬ Occurs onameMark s) : matchPats institutionPats s = none := by
  unfold institutionPats
  rw [matchPats]
  refine tryDown_none _ fun j _ _ => ?_
  cases hm : matchPats [.ws, .lit onameMark, .ws, .any, .ws, .lit orgMark] (s.drop j) with
  | none =>
    rw [show "(ONAME from NASA Ames file);".toList = onameMark from rfl,
      show "(ORG from NASA Ames file).".toList = orgMark from rfl, hm]
    rfl
  | some r =>
    obtain ⟨w, w1, w2⟩ := matchPats_ws_lit hm
    rw [List.drop_drop, List.isPrefixOf_iff_prefix] at w2
    obtain ⟨t, ht⟩ := w2
    exact absurd ⟨s.take (j + w), t, by rw [List.append_assoc, ht, List.take_append_drop]⟩ h

end Nappy
