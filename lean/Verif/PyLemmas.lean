import Verif.Py

/-! Lemmas about the Python runtime pieces of `Verif.Py`. Helper file: no property statements. -/

namespace Nappy

/-! ### dropWhile, strip -/

theorem dropWhile_split {α : Type} (p : α → Bool) (l : List α) :
    ∃ pre, l = pre ++ l.dropWhile p ∧ ∀ c ∈ pre, p c = true := by
  induction l with
  | nil => exact ⟨[], rfl, by simp⟩
  | cons a l ih =>
    by_cases h : p a = true
    · obtain ⟨pre, h1, h2⟩ := ih
      refine ⟨a :: pre, ?_, ?_⟩
      · simp only [List.dropWhile_cons, h, if_true, List.cons_append]; rw [← h1]
      · intro c hc; rcases List.mem_cons.1 hc with rfl | hc
        · exact h
        · exact h2 c hc
    · exact ⟨[], by simp [List.dropWhile_cons, h], by simp⟩

theorem dropWhile_head {α : Type} (p : α → Bool) (l : List α) :
    ∀ c t, l.dropWhile p = c :: t → p c = false := by
  induction l with
  | nil => simp
  | cons a l ih =>
    intro c t h
    by_cases hp : p a = true
    · simp only [List.dropWhile_cons, hp, if_true] at h; exact ih c t h
    · simp only [List.dropWhile_cons, hp] at h
      cases h; simpa using hp

theorem dropWhile_eq_self {α : Type} (p : α → Bool) (l : List α)
    (h : ∀ c t, l = c :: t → p c = false) : l.dropWhile p = l := by
  cases l with
  | nil => rfl
  | cons a t => simp [List.dropWhile_cons, h a t rfl]

theorem dropWhile_all {α : Type} (p : α → Bool) (l : List α) (h : ∀ c ∈ l, p c = true) :
    l.dropWhile p = [] := by
  induction l with
  | nil => rfl
  | cons a t ih =>
    rw [List.dropWhile_cons, h a (by simp), if_pos rfl]
    exact ih (fun c hc => h c (List.mem_cons_of_mem _ hc))

theorem dropWhile_append_all {α : Type} (p : α → Bool) (l r : List α) (h : ∀ c ∈ l, p c = true) :
    (l ++ r).dropWhile p = r.dropWhile p := by
  induction l with
  | nil => rfl
  | cons a t ih =>
    rw [List.cons_append, List.dropWhile_cons, h a (by simp), if_pos rfl]
    exact ih (fun c hc => h c (List.mem_cons_of_mem _ hc))

theorem rstripP_split (p : Char → Bool) (s : Str) :
    ∃ suf, s = rstripP p s ++ suf ∧ ∀ c ∈ suf, p c = true := by
  obtain ⟨pre, h1, h2⟩ := dropWhile_split p s.reverse
  refine ⟨pre.reverse, ?_, by simpa using h2⟩
  have := congrArg List.reverse h1
  simpa [rstripP] using this

theorem rstripP_append_all (p : Char → Bool) (s r : Str) (h : ∀ c ∈ r, p c = true) :
    rstripP p (s ++ r) = rstripP p s := by
  unfold rstripP
  rw [List.reverse_append, dropWhile_append_all p r.reverse s.reverse (by simpa using h)]

theorem rstripP_eq_self (p : Char → Bool) (s : Str)
    (h : ∀ a c, s = a ++ [c] → p c = false) : rstripP p s = s := by
  unfold rstripP
  rw [dropWhile_eq_self]
  · simp
  · intro c t hc
    apply h t.reverse c
    have := congrArg List.reverse hc
    simpa using this

theorem rstripP_last (p : Char → Bool) (s a : Str) (c : Char) (h : rstripP p s = a ++ [c]) :
    p c = false := by
  unfold rstripP at h
  have h' := congrArg List.reverse h
  simp at h'
  exact dropWhile_head p s.reverse c _ h'

/-- `s` has no white space at either end. -/
def Trimmed (s : Str) : Prop :=
  (∀ c t, s = c :: t → isSpace c = false) ∧ (∀ a c, s = a ++ [c] → isSpace c = false)

theorem strip_eq_self (s : Str) (h : Trimmed s) : strip s = s := by
  unfold strip lstrip rstrip
  rw [dropWhile_eq_self _ _ h.1, rstripP_eq_self _ _ h.2]

theorem strip_append_spaces (s r : Str) (hs : Trimmed s) (h : ∀ c ∈ r, isSpace c = true) :
    strip (s ++ r) = s := by
  cases s with
  | nil =>
    unfold strip lstrip rstrip
    rw [List.nil_append, dropWhile_all _ _ h]; rfl
  | cons c t =>
    unfold strip lstrip rstrip
    rw [dropWhile_eq_self, rstripP_append_all _ _ _ h, rstripP_eq_self _ _ hs.2]
    intro c' t' h'
    simp at h'
    exact hs.1 c' t (by rw [h'.1])

theorem strip_split (s : Str) :
    ∃ l r, s = l ++ strip s ++ r ∧ (∀ c ∈ l, isSpace c = true) ∧ (∀ c ∈ r, isSpace c = true) := by
  obtain ⟨l, h1, h2⟩ := dropWhile_split isSpace s
  obtain ⟨r, h3, h4⟩ := rstripP_split isSpace (lstrip s)
  refine ⟨l, r, ?_, h2, h4⟩
  rw [List.append_assoc]
  conv => lhs; rw [h1]
  congr 1

theorem strip_trimmed (s : Str) : Trimmed (strip s) := by
  constructor
  · intro c t h
    obtain ⟨suf, h3, h4⟩ := rstripP_split isSpace (lstrip s)
    have h5 : lstrip s = c :: (t ++ suf) := by
      rw [h3]; show strip s ++ suf = _; rw [h]; rfl
    exact dropWhile_head isSpace s c _ h5
  · intro a c h
    exact rstripP_last isSpace (lstrip s) a c h

theorem trimmed_nil : Trimmed [] := ⟨by simp, by simp⟩

theorem strip_strip (s : Str) : strip (strip s) = strip s := strip_eq_self _ (strip_trimmed s)

theorem mem_strip (s : Str) (c : Char) (h : c ∈ strip s) : c ∈ s := by
  obtain ⟨l, r, h1, _, _⟩ := strip_split s
  rw [h1]; simp [h]

/-! ### splitting -/

theorem splitP_ne_nil (p : Char → Bool) (s : Str) : splitP p s ≠ [] := by
  cases s with
  | nil => simp [splitP]
  | cons c cs =>
    unfold splitP
    by_cases h : p c = true
    · simp [h]
    · simp only [h]; cases splitP p cs <;> simp

theorem splitP_append_sep (p : Char → Bool) (a b : Str) (c : Char) (hc : p c = true) :
    splitP p (a ++ c :: b) = splitP p a ++ splitP p b := by
  induction a with
  | nil => simp [splitP, hc]
  | cons x a ih =>
    rw [List.cons_append]
    by_cases h : p x = true
    · simp [splitP, h, ih]
    · simp only [splitP, h]
      rw [ih]
      cases h2 : splitP p a with
      | nil => exact absurd h2 (splitP_ne_nil p a)
      | cons y t => simp

theorem splitP_none (p : Char → Bool) (s : Str) (h : ∀ c ∈ s, p c = false) : splitP p s = [s] := by
  induction s with
  | nil => rfl
  | cons c cs ih =>
    have h1 := ih (fun x hx => h x (List.mem_cons_of_mem _ hx))
    simp [splitP, h c (by simp), h1]

theorem splitP_mem (p : Char → Bool) (s : Str) :
    ∀ w ∈ splitP p s, (∀ c ∈ w, p c = false ∧ c ∈ s) := by
  induction s with
  | nil => simp [splitP]
  | cons x xs ih =>
    intro w hw c hc
    by_cases h : p x = true
    · simp only [splitP, h, if_true, List.mem_cons] at hw
      rcases hw with rfl | hw
      · simp at hc
      · have := ih w hw c hc; exact ⟨this.1, List.mem_cons_of_mem _ this.2⟩
    · have h' : p x = false := by simpa using h
      simp only [splitP, h] at hw
      cases h2 : splitP p xs with
      | nil => exact absurd h2 (splitP_ne_nil p xs)
      | cons y t =>
        rw [h2] at hw ih
        simp only [Bool.false_eq_true, if_false, List.mem_cons] at hw
        rcases hw with rfl | hw
        · rcases List.mem_cons.1 hc with rfl | hc
          · exact ⟨h', by simp⟩
          · have := ih y (by simp) c hc; exact ⟨this.1, List.mem_cons_of_mem _ this.2⟩
        · have := ih w (by simp [hw]) c hc; exact ⟨this.1, List.mem_cons_of_mem _ this.2⟩

@[simp] theorem words_nil : words [] = [] := rfl

theorem words_append_space (a b : Str) (c : Char) (hc : isSpace c = true) :
    words (a ++ c :: b) = words a ++ words b := by
  unfold words
  rw [splitP_append_sep _ _ _ _ hc, List.filter_append]

theorem words_cons_space (b : Str) (c : Char) (hc : isSpace c = true) :
    words (c :: b) = words b := by
  have := words_append_space [] b c hc
  simpa using this

theorem words_spaces_append (l b : Str) (h : ∀ c ∈ l, isSpace c = true) :
    words (l ++ b) = words b := by
  induction l with
  | nil => rfl
  | cons c l ih =>
    rw [List.cons_append, words_cons_space _ _ (h c (by simp))]
    exact ih (fun x hx => h x (List.mem_cons_of_mem _ hx))

theorem words_spaces (l : Str) (h : ∀ c ∈ l, isSpace c = true) : words l = [] := by
  have := words_spaces_append l [] h; simpa using this

theorem words_sep (a b ws : Str) (hne : ws ≠ []) (h : ∀ c ∈ ws, isSpace c = true) :
    words (a ++ (ws ++ b)) = words a ++ words b := by
  cases ws with
  | nil => exact absurd rfl hne
  | cons c ws =>
    rw [List.cons_append, words_append_space _ _ _ (h c (by simp)),
      words_spaces_append _ _ (fun x hx => h x (List.mem_cons_of_mem _ hx))]

theorem words_append_spaces (a r : Str) (h : ∀ c ∈ r, isSpace c = true) :
    words (a ++ r) = words a := by
  cases r with
  | nil => simp
  | cons c r =>
    have := words_sep a [] (c :: r) (by simp) h
    simpa using this

theorem words_strip (s : Str) : words (strip s) = words s := by
  obtain ⟨l, r, h1, h2, h3⟩ := strip_split s
  conv => rhs; rw [h1, List.append_assoc, words_spaces_append _ _ h2, words_append_spaces _ _ h3]

theorem words_token (t : Str) (hne : t ≠ []) (h : ∀ c ∈ t, isSpace c = false) : words t = [t] := by
  unfold words
  rw [splitP_none _ _ h]
  cases t with
  | nil => exact absurd rfl hne
  | cons c t => simp

theorem mem_words (s w : Str) (h : w ∈ words s) :
    w ≠ [] ∧ ∀ c ∈ w, isSpace c = false ∧ c ∈ s := by
  unfold words at h
  rw [List.mem_filter] at h
  refine ⟨?_, splitP_mem isSpace s w h.1⟩
  intro h'; simp [h'] at h

theorem words_eq_nil (s : Str) (h : words s = []) : ∀ c ∈ s, isSpace c = true := by
  induction s with
  | nil => simp
  | cons c cs ih =>
    by_cases hc : isSpace c = true
    · rw [words_cons_space _ _ hc] at h
      intro x hx
      rcases List.mem_cons.1 hx with rfl | hx
      · exact hc
      · exact ih h x hx
    · exfalso
      unfold words at h
      simp only [splitP, hc] at h
      cases h2 : splitP isSpace cs with
      | nil => exact absurd h2 (splitP_ne_nil _ _)
      | cons y t => rw [h2] at h; simp at h

theorem reSplitWs_trimmed (s : Str) (h : Trimmed s) (hne : s ≠ []) : reSplitWs s = words s := by
  have hw : words s ≠ [] := by
    intro hw
    have := words_eq_nil s hw
    cases s with
    | nil => exact hne rfl
    | cons c t =>
      have h1 := h.1 c t rfl
      rw [this c (by simp)] at h1; cases h1
  unfold reSplitWs
  have h1 : (words s).isEmpty = false := by
    cases hws : words s with
    | nil => exact absurd hws hw
    | cons a b => rfl
  simp only [h1]
  have hl : s.head?.any isSpace = false := by
    cases s with
    | nil => rfl
    | cons c t => simpa using h.1 c t rfl
  have hr : s.getLast?.any isSpace = false := by
    rcases List.eq_nil_or_concat s with rfl | ⟨a, c, rfl⟩
    · rfl
    · simpa using h.2 a c (by simp)
  rw [hl, hr]; simp

theorem strip_eq_nil_iff (s : Str) : strip s = [] ↔ ∀ c ∈ s, isSpace c = true := by
  constructor
  · intro h
    obtain ⟨l, r, h1, h2, h3⟩ := strip_split s
    rw [h] at h1
    intro c hc
    rw [h1] at hc
    simp at hc
    rcases hc with hc | hc
    · exact h2 c hc
    · exact h3 c hc
  · intro h
    have := strip_append_spaces [] s trimmed_nil h
    simpa using this

theorem words_eq_nil_iff (s : Str) : words s = [] ↔ strip s = [] := by
  rw [strip_eq_nil_iff]
  exact ⟨words_eq_nil s, words_spaces s⟩

/-! ### lines -/

theorem readlines_line (l rest : Str) (h : '\n' ∉ l) :
    readlines (l ++ '\n' :: rest) = (l ++ ['\n']) :: readlines rest := by
  induction l with
  | nil => simp [readlines]
  | cons c l ih =>
    have hc : c ≠ '\n' := fun e => h (by simp [e])
    have hl : '\n' ∉ l := fun e => h (List.mem_cons_of_mem _ e)
    rw [List.cons_append, readlines, if_neg hc, ih hl]
    rfl

@[simp] theorem unlines_nil : unlines [] = [] := rfl

@[simp] theorem unlines_cons (l : Str) (ls : List Str) :
    unlines (l :: ls) = l ++ '\n' :: unlines ls := by
  simp [unlines]

theorem unlines_append (a b : List Str) : unlines (a ++ b) = unlines a ++ unlines b := by
  simp [unlines]

theorem readlines_unlines (ls : List Str) (rest : Str) (h : ∀ l ∈ ls, '\n' ∉ l) :
    readlines (unlines ls ++ rest) = ls.map (fun l => l ++ ['\n']) ++ readlines rest := by
  induction ls with
  | nil => simp
  | cons l ls ih =>
    rw [unlines_cons, List.append_assoc, List.cons_append, readlines_line _ _ (h l (by simp)),
      ih (fun x hx => h x (List.mem_cons_of_mem _ hx))]
    rfl

theorem concat_readlines (s : Str) : concat (readlines s) = s := by
  unfold concat
  induction s with
  | nil => rfl
  | cons c cs ih =>
    unfold readlines
    by_cases h : c = '\n'
    · simp [h, ih]
    · rw [if_neg h]
      cases h2 : readlines cs with
      | nil => rw [h2] at ih; simp at ih; simp [← ih]
      | cons a t => rw [h2] at ih; simp at ih; simp [ih]

/-- Every line of `readlines` is newline-free apart from a final newline. -/
theorem readlines_shape (s : Str) : ∀ l ∈ readlines s, l ≠ [] ∧
    ∃ b, '\n' ∉ b ∧ (l = b ∨ l = b ++ ['\n']) := by
  induction s with
  | nil => simp [readlines]
  | cons c cs ih =>
    intro l hl
    unfold readlines at hl
    by_cases h : c = '\n'
    · simp only [h, if_true, List.mem_cons] at hl
      rcases hl with rfl | hl
      · exact ⟨by simp, [], by simp, Or.inr rfl⟩
      · exact ih l hl
    · rw [if_neg h] at hl
      cases h2 : readlines cs with
      | nil =>
        rw [h2] at hl; simp at hl; subst hl
        exact ⟨by simp, [c], by simpa using fun e => h e.symm, Or.inl rfl⟩
      | cons a t =>
        rw [h2] at hl ih
        simp only [List.mem_cons] at hl
        rcases hl with rfl | hl
        · obtain ⟨_, b, hb1, hb2⟩ := ih a (by simp)
          refine ⟨by simp, c :: b, ?_, ?_⟩
          · simp only [List.mem_cons, not_or]; exact ⟨fun e => h e.symm, hb1⟩
          · rcases hb2 with hb2 | hb2
            · left; rw [hb2]
            · right; rw [hb2]; rfl
        · exact ih l (by simp [hl])

/-- Number of newline characters. -/
def countNL (s : Str) : Nat := s.count '\n'

theorem readlines_append (a b : Str) (h : a = [] ∨ ∃ a', a = a' ++ ['\n']) :
    readlines (a ++ b) = readlines a ++ readlines b := by
  induction a with
  | nil => simp [readlines]
  | cons c cs ih =>
    rw [List.cons_append]
    by_cases hc : c = '\n'
    · have : cs = [] ∨ ∃ a', cs = a' ++ ['\n'] := by
        rcases h with h | ⟨a', h⟩
        · cases h
        · cases a' with
          | nil => left; simp at h; exact h.2
          | cons x xs => right; simp at h; exact ⟨xs, h.2⟩
      simp [readlines, hc, ih this]
    · have h' : ∃ a', cs = a' ++ ['\n'] := by
        rcases h with h | ⟨a', h⟩
        · cases h
        · cases a' with
          | nil => simp at h; exact absurd h.1 hc
          | cons x xs => simp at h; exact ⟨xs, h.2⟩
      have ih' := ih (Or.inr h')
      simp only [readlines, if_neg hc, ih']
      cases h2 : readlines cs with
      | nil =>
        exfalso
        have := concat_readlines cs
        rw [h2] at this
        obtain ⟨a', h'⟩ := h'
        rw [h'] at this; simp [concat] at this
      | cons x t => simp

theorem univNL_id (s : Str) (h : '\r' ∉ s) : univNL s = s := by
  induction s with
  | nil => rfl
  | cons c cs ih =>
    have hc : c ≠ '\r' := fun e => h (by simp [e])
    have hcs : '\r' ∉ cs := fun e => h (List.mem_cons_of_mem _ e)
    rw [univNL]
    · rw [ih hcs]
    · intro cs' h1 _; exact hc h1
    · intro h1; exact hc h1

theorem fileLines_id (s : Str) (h : '\r' ∉ s) : fileLines s = readlines s := by
  unfold fileLines; rw [univNL_id s h]

theorem splitlinesKeep_concat (s : Str) : concat (splitlinesKeep s) = s := by
  unfold concat
  induction s using splitlinesKeep.induct with
  | case1 => rfl
  | case2 cs ih => simp [splitlinesKeep, ih]
  | case3 c cs h hb ih =>
    rw [splitlinesKeep]
    · simp [hb, ih]
    · exact h
  | case4 c cs h hb hn ih =>
    rw [splitlinesKeep]
    · rw [if_neg hb, hn]
      rw [hn] at ih; simp at ih; simp [← ih]
    · exact h
  | case5 c cs h hb hd tl hn ih =>
    rw [splitlinesKeep]
    · rw [if_neg hb, hn]
      rw [hn] at ih; simp at ih; simp [ih]
    · exact h

/-! ### integers -/

theorem digitChar_toNat (d : Nat) (h : d < 10) : (digitChar d).toNat = 48 + d := by
  have : ∀ d, d < 10 → (digitChar d).toNat = 48 + d := by decide
  exact this d h

theorem digitVal_digitChar (d : Nat) (h : d < 10) : digitVal (digitChar d) = some d := by
  unfold digitVal
  rw [digitChar_toNat d h]
  rw [if_pos (by omega)]
  congr 1; omega

theorem natStr_ne_nil (n : Nat) : natStr n ≠ [] := by
  unfold natStr; split <;> simp

/-- Every character of a numeral is an ASCII digit. -/
theorem natStr_digits (n : Nat) : ∀ c ∈ natStr n, ∃ d, d < 10 ∧ c = digitChar d := by
  induction n using natStr.induct with
  | case1 n h => 
    intro c hc
    rw [natStr, if_pos h] at hc
    simp at hc
    exact ⟨n, h, hc⟩
  | case2 n h ih =>
    intro c hc
    rw [natStr, if_neg h] at hc
    simp at hc
    rcases hc with hc | hc
    · exact ih c hc
    · exact ⟨n % 10, by omega, hc⟩

theorem digitChar_ne_underscore (d : Nat) (h : d < 10) : digitChar d ≠ '_' := by
  have : ∀ d, d < 10 → digitChar d ≠ '_' := by decide
  exact this d h

theorem digitChar_not_space (d : Nat) (h : d < 10) : isSpace (digitChar d) = false := by
  have : ∀ d, d < 10 → isSpace (digitChar d) = false := by decide
  exact this d h

theorem parseDigitsAux_digit (acc d : Nat) (h : d < 10) (cs : Str) :
    parseDigitsAux acc (digitChar d :: cs) = parseDigitsAux (acc * 10 + d) cs := by
  rw [parseDigitsAux]
  · rw [digitVal_digitChar d h]
  · intro c' cs' h1; exact absurd h1 (digitChar_ne_underscore d h)

theorem parseDigitsAux_append (acc : Nat) (s : Str) (d : Nat) (hd : d < 10) 
    (hs : ∀ c ∈ s, ∃ d, d < 10 ∧ c = digitChar d) :
    parseDigitsAux acc (s ++ [digitChar d]) = (parseDigitsAux acc s).map (fun n => n * 10 + d) := by
  induction s generalizing acc with
  | nil => simp [parseDigitsAux_digit _ _ hd, parseDigitsAux]
  | cons c cs ih =>
    obtain ⟨e, he, rfl⟩ := hs c (by simp)
    rw [List.cons_append, parseDigitsAux_digit _ _ he, parseDigitsAux_digit _ _ he]
    exact ih _ (fun x hx => hs x (List.mem_cons_of_mem _ hx))

theorem parseNat_natStr (n : Nat) : parseNat (natStr n) = some n := by
  induction n using natStr.induct with
  | case1 n h => 
    rw [natStr, if_pos h]
    simp [parseNat, digitVal_digitChar n h, parseDigitsAux]
  | case2 n h ih =>
    rw [natStr, if_neg h]
    cases hs : natStr (n / 10) with
    | nil => exact absurd hs (natStr_ne_nil _)
    | cons c cs =>
      have hd := natStr_digits (n / 10)
      rw [hs] at ih hd
      obtain ⟨e, he, rfl⟩ := hd c (by simp)
      rw [List.cons_append]
      simp only [parseNat, digitVal_digitChar e he] at ih ⊢
      rw [parseDigitsAux_append _ _ _ (by omega) (fun x hx => hd x (List.mem_cons_of_mem _ hx)), ih]
      simp; omega

theorem digitChar_ne_sign (d : Nat) (h : d < 10) : digitChar d ≠ '-' ∧ digitChar d ≠ '+' := by
  have : ∀ d, d < 10 → digitChar d ≠ '-' ∧ digitChar d ≠ '+' := by decide
  exact this d h

theorem intStr_chars (i : Int) : ∀ c ∈ intStr i, c = '-' ∨ ∃ d, d < 10 ∧ c = digitChar d := by
  intro c hc
  cases i with
  | ofNat n => exact Or.inr (natStr_digits n c hc)
  | negSucc n =>
    simp only [intStr, List.mem_cons] at hc
    rcases hc with rfl | hc
    · exact Or.inl rfl
    · exact Or.inr (natStr_digits _ c hc)

theorem intStr_ne_nil (i : Int) : intStr i ≠ [] := by
  cases i with
  | ofNat n => exact natStr_ne_nil n
  | negSucc n => simp [intStr]

theorem intStr_not_space (i : Int) : ∀ c ∈ intStr i, isSpace c = false := by
  intro c hc
  rcases intStr_chars i c hc with rfl | ⟨d, hd, rfl⟩
  · decide
  · exact digitChar_not_space d hd

theorem trimmed_of_no_space (s : Str) (h : ∀ c ∈ s, isSpace c = false) : Trimmed s :=
  ⟨fun c t e => h c (by simp [e]), fun a c e => h c (by simp [e])⟩

theorem parseInt_intStr (i : Int) : parseInt (intStr i) = some i := by
  unfold parseInt
  rw [strip_eq_self _ (trimmed_of_no_space _ (intStr_not_space i))]
  cases i with
  | ofNat n =>
    simp only [intStr]
    cases hs : natStr n with
    | nil => exact absurd hs (natStr_ne_nil _)
    | cons c cs =>
      obtain ⟨d, hd, hcd⟩ := natStr_digits n c (by rw [hs]; simp)
      have h := digitChar_ne_sign d hd
      rw [← hcd] at h
      have hp := parseNat_natStr n
      rw [hs] at hp
      split
      · rename_i h1; simp at h1; exact absurd h1.1 h.1
      · rename_i h1; simp at h1; exact absurd h1.1 h.2
      · rw [hp]; rfl
  | negSucc n =>
    simp only [intStr]
    rw [parseNat_natStr]; rfl

theorem pyInt_intStr (i : Int) : pyInt (intStr i) = .ok i := by
  unfold pyInt; rw [parseInt_intStr]

theorem natStr_injective (a b : Nat) (h : natStr a = natStr b) : a = b := by
  have h1 := parseNat_natStr a
  rw [h, parseNat_natStr b] at h1
  exact (Option.some.inj h1).symm

theorem intStr_injective (a b : Int) (h : intStr a = intStr b) : a = b := by
  have h1 := parseInt_intStr a
  rw [h, parseInt_intStr b] at h1
  exact (Option.some.inj h1).symm

/-! ### mapRes -/

theorem mapRes_ok_length {α β : Type} (f : α → Res β) (l : List α) (r : List β)
    (h : mapRes f l = .ok r) : r.length = l.length := by
  induction l generalizing r with
  | nil => simp [mapRes] at h; simp [← h]
  | cons a l ih =>
    simp only [mapRes] at h
    cases h1 : f a with
    | error e => rw [h1] at h; simp at h
    | ok b =>
      rw [h1] at h; simp only [ok_bind] at h
      cases h2 : mapRes f l with
      | error e => rw [h2] at h; simp at h
      | ok bs =>
        rw [h2] at h; simp at h; subst h
        simp [ih bs h2]

theorem mapRes_map_ok {α β γ : Type} (f : β → Res γ) (g : α → β) (k : α → γ) (l : List α)
    (h : ∀ a ∈ l, f (g a) = .ok (k a)) : mapRes f (l.map g) = .ok (l.map k) := by
  induction l with
  | nil => rfl
  | cons a l ih =>
    simp only [List.map_cons, mapRes, h a (by simp), ok_bind,
      ih (fun x hx => h x (List.mem_cons_of_mem _ hx))]

theorem mapRes_append {α β : Type} (f : α → Res β) (a b : List α) (x y : List β)
    (ha : mapRes f a = .ok x) (hb : mapRes f b = .ok y) : mapRes f (a ++ b) = .ok (x ++ y) := by
  induction a generalizing x with
  | nil => simp only [mapRes] at ha; injection ha with ha; subst ha; simpa using hb
  | cons c a ih =>
    simp only [mapRes, List.cons_append] at ha ⊢
    cases h1 : f c with
    | error e => rw [h1] at ha; cases ha
    | ok u =>
      rw [h1] at ha; simp only [ok_bind] at ha ⊢
      cases h2 : mapRes f a with
      | error e => rw [h2] at ha; cases ha
      | ok us =>
        rw [h2] at ha; simp only [ok_bind] at ha
        injection ha with ha; subst ha
        rw [ih us h2]; rfl

theorem mapRes_congr {α β : Type} (f g : α → Res β) (l : List α) (h : ∀ a ∈ l, f a = g a) :
    mapRes f l = mapRes g l := by
  induction l with
  | nil => rfl
  | cons a l ih =>
    simp only [mapRes, h a (by simp), ih (fun x hx => h x (List.mem_cons_of_mem _ hx))]

theorem mapRes_ok_map {α β : Type} (f : α → Res β) (k : α → β) (l : List α)
    (h : ∀ a ∈ l, f a = .ok (k a)) : mapRes f l = .ok (l.map k) := by
  induction l with
  | nil => rfl
  | cons a l ih =>
    simp only [mapRes, h a (by simp), ih (fun x hx => h x (List.mem_cons_of_mem _ hx)), ok_bind,
      List.map_cons]

end Nappy
