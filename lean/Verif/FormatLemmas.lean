import Verif.PyFormat
import Verif.PyLemmas

/-! Printed numbers are read back digit by digit. -/

namespace Nappy

variable {F : Type}

theorem isDigit_digitChar (d : Nat) (h : d < 10) : isDigit (digitChar d) = true := by
  unfold isDigit; rw [digitVal_digitChar d h]; rfl

theorem natStr_isDigit (n : Nat) : ∀ c ∈ natStr n, isDigit c = true := by
  intro c hc
  obtain ⟨d, hd, rfl⟩ := natStr_digits n c hc
  exact isDigit_digitChar d hd

theorem fracDigits_isDigit : ∀ (p r : Nat), ∀ c ∈ fracDigits p r, isDigit c = true
  | 0, r => by simp [fracDigits]
  | p + 1, r => by
    intro c hc
    simp only [fracDigits, List.mem_append, List.mem_singleton] at hc
    rcases hc with hc | rfl
    · exact fracDigits_isDigit p _ c hc
    · exact isDigit_digitChar _ (Nat.mod_lt _ (by decide))

theorem fracDigits_length : ∀ (p r : Nat), (fracDigits p r).length = p
  | 0, r => rfl
  | p + 1, r => by simp [fracDigits, fracDigits_length p]

theorem digitsVal_append : ∀ (acc : Nat) (a b : Str), digitsVal acc (a ++ b) = digitsVal (digitsVal acc a) b
  | _, [], _ => rfl
  | acc, c :: a, b => by simp only [List.cons_append, digitsVal]; exact digitsVal_append _ a b

theorem digitsVal_digitChar (acc d : Nat) (h : d < 10) : digitsVal acc [digitChar d] = acc * 10 + d := by
  simp [digitsVal, digitVal_digitChar d h]

theorem digitsVal_natStr (n : Nat) : digitsVal 0 (natStr n) = n := by
  induction n using natStr.induct with
  | case1 n h => rw [natStr, if_pos h, digitsVal_digitChar _ _ h]; omega
  | case2 n h ih =>
    rw [natStr, if_neg h, digitsVal_append, ih, digitsVal_digitChar _ _ (Nat.mod_lt _ (by decide))]
    omega

theorem digitsVal_fracDigits : ∀ (p r acc : Nat), r < 10 ^ p → digitsVal acc (fracDigits p r) = acc * 10 ^ p + r
  | 0, r, acc, h => by
    have : r = 0 := by simpa using h
    subst this
    simp [fracDigits, digitsVal]
  | p + 1, r, acc, h => by
    have h1 : r / 10 < 10 ^ p := by
      rw [Nat.pow_succ] at h
      exact Nat.div_lt_of_lt_mul (by omega)
    rw [fracDigits, digitsVal_append, digitsVal_fracDigits p _ acc h1,
      digitsVal_digitChar _ _ (Nat.mod_lt _ (by decide)), Nat.pow_succ, Nat.add_mul, Nat.mul_assoc]
    omega

theorem digitsVal_zeros : ∀ n, digitsVal 0 (List.replicate n '0') = 0
  | 0 => rfl
  | n + 1 => by
    simp only [List.replicate_succ, digitsVal]
    exact digitsVal_zeros n

theorem takeWhile_stop (p : Char → Bool) (a b : Str) (ha : ∀ c ∈ a, p c = true)
    (hb : ∀ c ∈ b.head?, p c = false) : (a ++ b).takeWhile p = a ∧ (a ++ b).dropWhile p = b := by
  induction a with
  | nil =>
    cases b with
    | nil => simp
    | cons c t =>
      have := hb c (by simp)
      simp [this]
  | cons c a ih =>
    have h1 := ha c (by simp)
    have h2 := ih (fun c hc => ha c (by simp [hc]))
    simp [h1, h2.1, h2.2]

theorem expPart_parse (upper : Bool) (x : Int) :
    ∃ c t, expPart upper x = c :: t ∧ (c = 'e' ∨ c = 'E') ∧ isDigit c = false ∧ parseExp t = some x := by
  refine ⟨_, _, rfl, by cases upper <;> simp, by cases upper <;> decide, ?_⟩
  have hd : ∀ s : Str, (∀ c ∈ s, isDigit c = true) → s.all isDigit = true := by
    intro s h; simpa using h
  have hv : ∀ n : Nat, ∃ s : Str, (if n < 10 then '0' :: natStr n else natStr n) = s ∧ s ≠ [] ∧
      s.all isDigit = true ∧ digitsVal 0 s = n := by
    intro n
    refine ⟨_, rfl, ?_, ?_, ?_⟩
    · split
      · simp
      · exact natStr_ne_nil n
    · apply hd
      intro c hc
      split at hc
      · rcases List.mem_cons.1 hc with rfl | hc
        · decide
        · exact natStr_isDigit n c hc
      · exact natStr_isDigit n c hc
    · split
      · have : digitVal '0' = some 0 := by decide
        simp only [digitsVal, this]
        exact digitsVal_natStr n
      · exact digitsVal_natStr n
  obtain ⟨s, h1, h2, h3, h4⟩ := hv x.natAbs
  rw [h1]
  by_cases hx : x < 0
  · simp only [if_pos hx, parseExp, h3, h2, h4, ne_eq, not_false_eq_true, and_self, if_true]
    congr 1; omega
  · simp only [if_neg hx, parseExp, h3, h2, h4, ne_eq, not_false_eq_true, and_self, if_true]
    congr 1; omega

/-- The exponent that is printed, if any: it stands for `x`. -/
def Tail (E : Str) (x : Int) : Prop :=
  (E = [] ∧ x = 0) ∨ ∃ c t, E = c :: t ∧ (c = 'e' ∨ c = 'E') ∧ isDigit c = false ∧ parseExp t = some x

theorem mantissa_parse (alt : Bool) (z d m : Nat) (E : Str) (x : Int) (hE : Tail E x) :
    parseUnsigned (List.replicate z '0' ++ (mantissa alt d m ++ E)) = some (m, x - d) := by
  have hz : ∀ c ∈ List.replicate z '0' ++ natStr (m / 10 ^ d), isDigit c = true := by
    intro c hc
    rcases List.mem_append.1 hc with hc | hc
    · rw [(List.mem_replicate.1 hc).2]; decide
    · exact natStr_isDigit _ c hc
  have hv : digitsVal 0 (List.replicate z '0' ++ natStr (m / 10 ^ d)) = m / 10 ^ d := by
    rw [digitsVal_append, digitsVal_zeros, digitsVal_natStr]
  have hne : List.replicate z '0' ++ natStr (m / 10 ^ d) ≠ [] := by
    simp [natStr_ne_nil]
  have hEd : ∀ c ∈ E.head?, isDigit c = false := by
    intro c hc
    rcases hE with ⟨rfl, -⟩ | ⟨c', t, rfl, h1, h2, h3⟩
    · simp at hc
    · simp at hc; exact hc ▸ h2
  have hEp : ∀ c t, E = c :: t → c ≠ '.' := by
    intro c t h
    rcases hE with ⟨rfl, -⟩ | ⟨c', t', rfl, h1, h2, h3⟩
    · simp at h
    · simp at h; rw [← h.1]; rcases h1 with rfl | rfl <;> decide
  unfold parseUnsigned mantissa
  by_cases hd : d = 0
  · subst hd
    simp only [if_true]
    cases alt
    · simp only [Bool.false_eq_true, if_false, List.append_nil, ← List.append_assoc]
      obtain ⟨h1, h2⟩ := takeWhile_stop isDigit _ E hz hEd
      simp only [h1, h2]
      have hm : decimals E = ([], E) := by
        unfold decimals
        split
        · exact absurd rfl (hEp _ _ rfl)
        · rfl
      rw [hm]
      simp only [hne, false_and, if_false, List.append_nil, hv]
      rcases hE with ⟨rfl, rfl⟩ | ⟨c', t, rfl, h1, h2, h3⟩
      · simp
      · simp [h1, h3]
    · obtain ⟨h1, h2⟩ := takeWhile_stop isDigit _ ('.' :: E) hz (by simp; decide)
      have h3 := takeWhile_stop isDigit [] E (by simp) hEd
      simp only [List.nil_append] at h3
      simp only [if_true, ← List.append_assoc]
      rw [List.append_assoc _ ['.'] E, List.singleton_append]
      simp only [h1, h2, decimals, h3.1, h3.2]
      simp only [hne, false_and, if_false, List.append_nil, hv]
      rcases hE with ⟨rfl, rfl⟩ | ⟨c', t, rfl, h1, h2, h3⟩
      · simp
      · simp [h1, h3]
  · have hp : 0 < 10 ^ d := Nat.pow_pos (by decide)
    obtain ⟨h1, h2⟩ := takeWhile_stop isDigit _ ('.' :: (fracDigits d (m % 10 ^ d) ++ E)) hz (by simp; decide)
    obtain ⟨h3, h4⟩ := takeWhile_stop isDigit _ E (fracDigits_isDigit d (m % 10 ^ d)) hEd
    simp only [if_neg hd, ← List.append_assoc]
    rw [List.append_assoc _ ('.' :: _) E, List.cons_append]
    simp only [h1, h2, decimals, h3, h4]
    simp only [hne, false_and, if_false]
    rw [digitsVal_append, hv, digitsVal_fracDigits _ _ _ (Nat.mod_lt _ hp), fracDigits_length]
    have hm : m / 10 ^ d * 10 ^ d + m % 10 ^ d = m := by
      rw [Nat.mul_comm]; exact Nat.div_add_mod m (10 ^ d)
    rw [hm]
    rcases hE with ⟨rfl, rfl⟩ | ⟨c', t, rfl, h1, h2, h3⟩
    · simp
    · simp [h1, h3]

/-! ### Characters -/

/-- A character that a printed number can have. -/
def numChar (c : Char) : Bool := isDigit c || c == '.' || c == 'e' || c == 'E' || c == '-' || c == '+'

theorem isDigit_code {c : Char} (h : isDigit c = true) : ∃ d, d < 10 ∧ c = digitChar d := by
  unfold isDigit digitVal at h
  split at h
  · rename_i hc
    refine ⟨c.toNat - 48, by omega, ?_⟩
    unfold digitChar
    rw [show 48 + (c.toNat - 48) = c.toNat by omega]
    exact (Char.ofNat_toNat c).symm
  · simp at h

theorem numChar_plain {c : Char} (h : numChar c = true) :
    isSpace c = false ∧ c ≠ ',' ∧ c ≠ '{' ∧ c ≠ '}' ∧ c ≠ '\x01' := by
  simp only [numChar, Bool.or_eq_true, beq_iff_eq] at h
  rcases h with ((((h | rfl) | rfl) | rfl) | rfl) | rfl
  · obtain ⟨d, hd, rfl⟩ := isDigit_code h
    have : ∀ d, d < 10 → isSpace (digitChar d) = false ∧ digitChar d ≠ ',' ∧ digitChar d ≠ '{' ∧
      digitChar d ≠ '}' ∧ digitChar d ≠ '\x01' := by decide
    exact this d hd
  all_goals decide

theorem mantissa_chars (alt : Bool) (d m : Nat) : ∀ c ∈ mantissa alt d m, isDigit c = true ∨ c = '.' := by
  intro c hc
  simp only [mantissa, List.mem_append] at hc
  rcases hc with hc | hc
  · exact Or.inl (natStr_isDigit _ c hc)
  · split at hc
    · split at hc
      · exact Or.inr (by simpa using hc)
      · simp at hc
    · rcases List.mem_cons.1 hc with rfl | hc
      · exact Or.inr rfl
      · exact Or.inl (fracDigits_isDigit _ _ c hc)

theorem mantissa_head (alt : Bool) (d m : Nat) : ∃ c t, mantissa alt d m = c :: t ∧ isDigit c = true := by
  cases h : natStr (m / 10 ^ d) with
  | nil => exact absurd h (natStr_ne_nil _)
  | cons c t =>
    exact ⟨c, _, by rw [mantissa, h]; rfl, natStr_isDigit (m / 10 ^ d) c (by rw [h]; simp)⟩

theorem expPart_chars (upper : Bool) (x : Int) : ∀ c ∈ expPart upper x, numChar c = true := by
  intro c hc
  simp only [expPart, List.mem_cons] at hc
  rcases hc with rfl | rfl | hc
  · cases upper <;> decide
  · split <;> decide
  · have : isDigit c = true := by
      split at hc
      · rcases List.mem_cons.1 hc with rfl | hc
        · decide
        · exact natStr_isDigit _ c hc
      · exact natStr_isDigit _ c hc
    simp [numChar, this]

theorem expPart_tail (upper : Bool) (x : Int) : Tail (expPart upper x) x := Or.inr (expPart_parse upper x)

/-- What `numText` prints: digits `d` of which are decimals, and perhaps an exponent. -/
theorem numText_parts (f : FloatFormat) (hf : f.conv ≠ .str) (num den : Nat) :
    ∃ d m E x, numText f num den = mantissa f.alt d m ++ E ∧ Tail E x ∧ (∀ c ∈ E, numChar c = true) := by
  have nl : ∀ c ∈ ([] : Str), numChar c = true := by simp
  unfold numText
  cases h : f.conv with
  | fixed => exact ⟨_, _, [], 0, by simp; rfl, Or.inl ⟨rfl, rfl⟩, nl⟩
  | exp => exact ⟨_, _, _, _, rfl, expPart_tail _ _, expPart_chars _ _⟩
  | general =>
    dsimp only
    split
    · exact ⟨_, _, [], 0, by simp; rfl, Or.inl ⟨rfl, rfl⟩, nl⟩
    · exact ⟨_, _, _, _, rfl, expPart_tail _ _, expPart_chars _ _⟩
  | str => exact absurd h hf

/-! ### Signs and padding -/

theorem strip_padded {l t r : Str} (hl : ∀ c ∈ l, c = ' ') (hr : ∀ c ∈ r, c = ' ')
    (ht : ∀ c ∈ t, isSpace c = false) (h0 : t ≠ []) : strip (l ++ t ++ r) = t := by
  have hs : ∀ s : Str, (∀ c ∈ s, c = ' ') → ∀ c ∈ s, isSpace c = true := by
    intro s h c hc; rw [h c hc]; decide
  have h1 : strip (l ++ t ++ r) = strip (t ++ r) := by
    unfold strip lstrip
    rw [List.append_assoc, dropWhile_append_all _ _ _ (hs l hl)]
  rw [h1, strip_append_spaces _ _ (trimmed_of_no_space t ht) (hs r hr)]

/-- The sign without a blank. -/
def bareSign (s : Str) : Str := if s = [' '] then [] else s

theorem pad_parts (f : FloatFormat) (zero : Bool) (s t : Str) (hs : s ∈ [[], [' '], ['-'], ['+']]) :
    ∃ z l r, padTo f zero s t = l ++ (bareSign s ++ (List.replicate z '0' ++ t)) ++ r ∧ (∀ c ∈ l, c = ' ') ∧
      (∀ c ∈ r, c = ' ') ∧ (zero = false ∨ f.left = true → z = 0) := by
  obtain ⟨a, ha, hb⟩ : ∃ a : Str, s = a ++ bareSign s ∧ ∀ c ∈ a, c = ' ' := by
    simp only [List.mem_cons, List.not_mem_nil, or_false] at hs
    rcases hs with rfl | rfl | rfl | rfl
    · exact ⟨[], by decide, by simp⟩
    · exact ⟨[' '], by decide, by simp⟩
    · exact ⟨[], by decide, by simp⟩
    · exact ⟨[], by decide, by simp⟩
  have hn : ∀ n : Nat, ∀ c ∈ List.replicate n ' ', c = ' ' := fun n c hc => (List.mem_replicate.1 hc).2
  generalize hn' : f.width - (s.length + t.length) = n
  generalize bareSign s = b at ha
  subst ha
  unfold padTo
  simp only [hn']
  cases hl : f.left
  · cases zero
    · exact ⟨0, List.replicate n ' ' ++ a, [], by simp, by
        intro c hc
        rcases List.mem_append.1 hc with hc | hc
        · exact hn _ c hc
        · exact hb c hc, by simp, by simp⟩
    · exact ⟨n, a, [], by simp, hb, by simp, by simp⟩
  · exact ⟨0, a, List.replicate n ' ', by simp, hb, hn _, by simp⟩

theorem signed_parts (f : FloatFormat) (neg : Bool) (c : Char) (t : Str) (hc : isDigit c = true) :
    (signed f ((if neg then ['-'] else []) ++ c :: t)).2 = c :: t ∧
    (signed f ((if neg then ['-'] else []) ++ c :: t)).1 ∈ [[], [' '], ['-'], ['+']] ∧
    (bareSign (signed f ((if neg then ['-'] else []) ++ c :: t)).1, neg) ∈
      [(['-'], true), (['+'], false), (([] : Str), false)] := by
  have hne : c ≠ '-' := by
    intro h; rw [h] at hc; exact absurd hc (by decide)
  cases neg
  · have : signed f (c :: t) = (if f.plus then ['+'] else if f.blank then [' '] else [], c :: t) := by
      unfold signed
      split
      · rename_i h; simp at h; exact absurd h.1 hne
      · rfl
    simp only [Bool.false_eq_true, if_false, List.nil_append, this]
    refine ⟨trivial, ?_, ?_⟩ <;> cases f.plus <;> cases f.blank <;> decide
  · simp only [if_true, List.singleton_append, signed]
    exact ⟨trivial, by decide, by decide⟩

theorem parseDecimal_signed {b : Str} {neg : Bool} (hb : (b, neg) ∈ [(['-'], true), (['+'], false), (([] : Str), false)])
    {t : Str} {c : Char} {u : Str} (ht : t = c :: u) (hc : isDigit c = true) (hs : ∀ c ∈ t, isSpace c = false) :
    parseDecimal (b ++ t) = (parseUnsigned t).map (fun p => (neg, p)) := by
  have hm : c ≠ '-' := by
    intro h; rw [h] at hc; exact absurd hc (by decide)
  have hp : c ≠ '+' := by
    intro h; rw [h] at hc; exact absurd hc (by decide)
  simp only [List.mem_cons, List.not_mem_nil, or_false, Prod.mk.injEq] at hb
  have hsp : ∀ c ∈ b ++ t, isSpace c = false := by
    intro c' hc'
    rcases List.mem_append.1 hc' with h | h
    · rcases hb with ⟨rfl, -⟩ | ⟨rfl, -⟩ | ⟨rfl, -⟩
      · simp at h; rw [h]; decide
      · simp at h; rw [h]; decide
      · simp at h
    · exact hs c' h
  unfold parseDecimal
  rw [strip_eq_self _ (trimmed_of_no_space _ hsp)]
  rcases hb with ⟨rfl, rfl⟩ | ⟨rfl, rfl⟩ | ⟨rfl, rfl⟩
  · rfl
  · rfl
  · subst ht
    simp only [List.nil_append]
    split
    · rename_i h; simp at h; exact absurd h.1 hm
    · rename_i h; simp at h; exact absurd h.1 hp
    · rfl

/-- A finite number, printed by `%f`, `%e` or `%g`: one word among blanks that `float` takes for the sign of the number
and the printed digits. -/
theorem format_finite (fl : Floats F) (f : FloatFormat) (hf : f.conv ≠ .str) (x : F) (hx : fl.special x = none)
    {m d : Nat} {E : Str} {e : Int} (hn : numText f (fl.num x) (fl.den x) = mantissa f.alt d m ++ E) (hE : Tail E e)
    (hE' : ∀ c ∈ E, numChar c = true) :
    ∃ l t r, fl.format f x = l ++ t ++ r ∧ (∀ c ∈ l, c = ' ') ∧ (∀ c ∈ r, c = ' ') ∧ Token t ∧
      parseDecimal t = some (fl.neg x, m, e - d) := by
  obtain ⟨c, u, hu, hc⟩ := mantissa_head f.alt d m
  have hw : fl.format f x = padTo f f.zero (signed f ((if fl.neg x then ['-'] else []) ++ c :: (u ++ E))).1
      (signed f ((if fl.neg x then ['-'] else []) ++ c :: (u ++ E))).2 := by
    unfold Floats.format
    rw [hx, hn, hu]
    split
    · rename_i h; exact absurd h hf
    · rfl
  obtain ⟨h1, h2, h3⟩ := signed_parts f (fl.neg x) c (u ++ E) hc
  rw [h1] at hw
  generalize (signed f ((if fl.neg x then ['-'] else []) ++ c :: (u ++ E))).1 = s at hw h2 h3
  obtain ⟨z, l, r, g1, g2, g3, -⟩ := pad_parts f f.zero s (c :: (u ++ E)) h2
  have hb : c :: (u ++ E) = mantissa f.alt d m ++ E := by rw [hu]; rfl
  rw [hb] at g1 hw
  have hchars : ∀ c ∈ List.replicate z '0' ++ (mantissa f.alt d m ++ E), numChar c = true := by
    intro c hc
    rcases List.mem_append.1 hc with hc | hc
    · rw [(List.mem_replicate.1 hc).2]; decide
    · rcases List.mem_append.1 hc with hc | hc
      · rcases mantissa_chars _ _ _ c hc with h | h <;> simp [numChar, h]
      · exact hE' c hc
  obtain ⟨c', u', hu', hc'⟩ : ∃ c' u', List.replicate z '0' ++ (mantissa f.alt d m ++ E) = c' :: u' ∧ isDigit c' = true := by
    cases z with
    | zero => exact ⟨c, u ++ E, by rw [hu]; rfl, hc⟩
    | succ z => exact ⟨'0', _, by rw [List.replicate_succ]; rfl, by decide⟩
  refine ⟨l, _, r, by rw [hw, g1], g2, g3, ⟨?_, ?_⟩, ?_⟩
  · rw [hu']; simp
  · intro c hc
    rcases List.mem_append.1 hc with h | h
    · have hsg : c = '-' ∨ c = '+' := by
        simp only [List.mem_cons, List.not_mem_nil, or_false, Prod.mk.injEq] at h3
        rcases h3 with ⟨h3, -⟩ | ⟨h3, -⟩ | ⟨h3, -⟩ <;> rw [h3] at h <;> simp at h <;> simp [h]
      rcases hsg with rfl | rfl <;> decide
    · have := numChar_plain (hchars c h)
      exact ⟨this.1, this.2.1, this.2.2.1, this.2.2.2.1⟩
  · rw [parseDecimal_signed h3 hu' hc' (fun c hc => (numChar_plain (hchars c hc)).1), mantissa_parse _ _ _ _ _ _ hE]
    rfl

/-- A number that is not finite, not filled up with zeros: one word among blanks that `float` takes for the number. -/
theorem format_special (fl : Floats F) (f : FloatFormat) (hf : f.conv ≠ .str) (hz : f.zero = false ∨ f.left = true)
    (x : F) {s : Special} (hx : fl.special x = some s) :
    ∃ l t r, fl.format f x = l ++ t ++ r ∧ (∀ c ∈ l, c = ' ') ∧ (∀ c ∈ r, c = ' ') ∧ Token t ∧
      parseDecimal t = none ∧ parseSpecial t = some s := by
  have hw : fl.format f x = padTo f f.zero (signed f (if f.upper then s.text.map Char.toUpper else s.text)).1
      (signed f (if f.upper then s.text.map Char.toUpper else s.text)).2 := by
    unfold Floats.format
    rw [hx]
    split
    · rename_i h; exact absurd h hf
    · rfl
  have key : ∀ (sp : Special) (upper plus blank : Bool) (sg b : Str),
      signed { f with plus := plus, blank := blank } (if upper then sp.text.map Char.toUpper else sp.text) = (sg, b) →
      sg ∈ [[], [' '], ['-'], ['+']] ∧ Token (bareSign sg ++ b) ∧ parseDecimal (bareSign sg ++ b) = none ∧
        parseSpecial (bareSign sg ++ b) = some sp := by
    intro sp upper plus blank sg b h
    cases sp <;> cases upper <;> cases plus <;> cases blank <;>
      (simp [signed, Special.text] at h; obtain ⟨rfl, rfl⟩ := h; decide +kernel)
  have key := key s f.upper f.plus f.blank
  have hfe : { f with plus := f.plus, blank := f.blank } = f := rfl
  rw [hfe] at key
  generalize signed f (if f.upper then s.text.map Char.toUpper else s.text) = p at hw key
  obtain ⟨k1, k2, k3, k4⟩ := key p.1 p.2 rfl
  obtain ⟨z, l, r, g1, g2, g3, g4⟩ := pad_parts f f.zero p.1 p.2 k1
  rw [g4 hz] at g1
  exact ⟨l, _, r, by rw [hw, g1]; simp, g2, g3, k2, k3, k4⟩

theorem format_str (fl : Floats F) (f : FloatFormat) (hf : f.conv = .str) (hp : f.prec = none) (x : F) :
    ∃ l r, fl.format f x = l ++ fl.repr x ++ r ∧ (∀ c ∈ l, c = ' ') ∧ (∀ c ∈ r, c = ' ') := by
  obtain ⟨z, l, r, g1, g2, g3, g4⟩ := pad_parts f false [] (fl.repr x) (by simp)
  rw [g4 (Or.inl rfl)] at g1
  refine ⟨l, r, ?_, g2, g3⟩
  unfold Floats.format
  rw [hf, hp]
  dsimp only
  rw [g1]
  simp [bareSign]

end Nappy
