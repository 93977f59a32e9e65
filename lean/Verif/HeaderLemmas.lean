import Verif.UtilLemmas
import Verif.LossLemmas
import Verif.RepeatLemmas
import Verif.Spec.Header

/-! The readers of headers accept exactly the layouts of `Spec.Header`. -/

namespace Nappy

open Spec

variable {F : Type}

/-! ### Items -/

theorem trimmed_trim {s : Str} (h : Trimmed s) : Trim s := by
  constructor
  · intro c hc
    cases s with
    | nil => cases hc
    | cons a t => injection hc with hc; exact hc ▸ h.1 a t rfl
  · intro c hc
    obtain ⟨a, e⟩ := List.getLast?_eq_some_iff.1 hc
    exact h.2 a c e

theorem stripped_iff (s t : Str) : Stripped s t ↔ t = strip s := by
  constructor
  · rintro ⟨l, r, e, hl, hr, ht⟩
    rw [e, strip_spaces hl hr, strip_eq_self _ (trim_trimmed ht)]
  · intro h
    obtain ⟨l, r, e, hl, hr⟩ := strip_split s
    exact ⟨l, r, by rw [h]; exact e, hl, hr, by rw [h]; exact trimmed_trim (strip_trimmed s)⟩

theorem oddQuote_iff (t : Str) : OddQuote t ↔
    ∃ c r, t = c :: r ∧ (c = '"' ∨ c = '\'') ∧ r.getLast? = some '\x01' ∧ '\n' ∉ r := by
  constructor
  · rintro ⟨q, m, hq, e, hn⟩
    exact ⟨q, m ++ ['\x01'], e, hq, by simp, by simpa using hn⟩
  · rintro ⟨c, r, e, hq, hl, hn⟩
    obtain ⟨m, rfl⟩ := List.getLast?_eq_some_iff.1 hl
    exact ⟨c, m, hq, e, fun h => hn (by simp [h])⟩

theorem noQuotes_iff (t s : Str) :
    ((OddQuote t ∧ s = []) ∨ (¬ OddQuote t ∧ s = t)) ↔ s = noQuotes t := by
  cases t with
  | nil =>
    have : ¬ OddQuote [] := by rintro ⟨q, m, _, e, _⟩; cases e
    simp [this, noQuotes]
  | cons c r =>
    have he : noQuotes (c :: r) =
        if (c = '"' ∨ c = '\'') ∧ r.getLast? = some '\x01' ∧ '\n' ∉ r then [] else c :: r := rfl
    rw [he]
    by_cases h : (c = '"' ∨ c = '\'') ∧ r.getLast? = some '\x01' ∧ '\n' ∉ r
    · have : OddQuote (c :: r) := (oddQuote_iff _).2 ⟨c, r, rfl, h.1, h.2.1, h.2.2⟩
      rw [if_pos h]
      simp [this]
    · have : ¬ OddQuote (c :: r) := by
        intro ho
        obtain ⟨c', r', e, h1, h2, h3⟩ := (oddQuote_iff _).1 ho
        injection e with e1 e2
        subst e1 e2
        exact h ⟨h1, h2, h3⟩
      rw [if_neg h]
      simp [this]

theorem itemOn_iff (l s : Str) : ItemOn l s ↔ s = readItem l := by
  unfold ItemOn readItem
  constructor
  · rintro ⟨g, t, hb, hs, h⟩
    rw [(noQuotes_iff _ _).1 h, (stripped_iff _ _).1 hs, (bare_iff _ _).1 hb]
  · intro h
    exact ⟨_, _, (bare_iff _ _).2 rfl, (stripped_iff _ _).2 rfl, (noQuotes_iff _ _).2 h⟩

theorem nameOn_iff (l s : Str) : NameOn l s ↔ s = readItem (rightStrip (strip l)) := by
  unfold NameOn
  constructor
  · rintro ⟨t, g, hs, hb, hi⟩
    rw [(itemOn_iff _ _).1 hi, ← (bare_iff _ _).1 hb, (stripped_iff _ _).1 hs]
  · intro h
    exact ⟨_, _, (stripped_iff _ _).2 rfl, (bare_iff _ _).2 rfl, (itemOn_iff _ _).2 h⟩

theorem intOn_iff (l : Str) (i : Int) : IntOn l i ↔ readItemInt l = .ok i := by
  unfold IntOn readItemInt
  constructor
  · rintro ⟨s, hs, h⟩; rw [← (itemOn_iff _ _).1 hs]; exact h
  · intro h; exact ⟨_, (itemOn_iff _ _).2 rfl, h⟩

theorem mapRes_iff {α β : Type} (f : α → Res β) (xs : List α) (ys : List β) :
    mapRes f xs = .ok ys ↔ List.Forall₂ (fun x y => f x = .ok y) xs ys := by
  constructor
  · exact fun h => mapRes_forall₂ h
  · intro h
    induction h with
    | nil => rfl
    | cons h1 _ ih => unfold mapRes; rw [h1, ih]; rfl

theorem rowOn_iff {β : Type} {conv : Str → Res β} (hc : ∀ x, conv [] ≠ .ok x) {n : Int} (hn : n ≠ 0) (l : Str)
    (xs : List β) : RowOn conv n l xs ↔ readItemsFromLine l n conv = .ok xs := by
  rw [readItemsFromLine_eq]
  unfold RowOn
  by_cases h0 : lineItems l = []
  · simp only [h0, if_true, List.length_cons, List.length_nil]
    constructor
    · rintro ⟨ws, hw, hl, _⟩
      rw [← (lineWords_iff _ _).1 hw, h0] at hl
      simp at hl; omega
    · intro h
      split at h
      · cases h
      · unfold mapRes at h
        obtain ⟨y, hy, _⟩ := ok_of_bind h
        exact absurd hy (hc y)
  · simp only [h0, if_false]
    constructor
    · rintro ⟨ws, hw, hl, hm⟩
      have := (lineWords_iff _ _).1 hw
      subst this
      rw [if_neg (by rintro ⟨_, h⟩; exact h hl)]
      exact (mapRes_iff _ _ _).2 hm
    · intro h
      split at h
      · cases h
      · rename_i hx
        refine ⟨_, (lineWords_iff _ _).2 rfl, ?_, (mapRes_iff _ _ _).1 h⟩
        by_contra hh
        exact hx ⟨hn, hh⟩

theorem lineWords_all (ls : List Str) (gs : List (List Str)) :
    List.Forall₂ LineWords ls gs ↔ gs = ls.map lineItems := by
  constructor
  · intro h
    induction h with
    | nil => rfl
    | cons h _ ih => rw [List.map_cons, ← ih, (lineWords_iff _ _).1 h]
  · rintro rfl
    induction ls with
    | nil => exact .nil
    | cons l ls ih => exact .cons ((lineWords_iff _ _).2 rfl) ih

theorem listOn_iff {β : Type} (conv : Str → Res β) (n : Int) (ls : List Str) (xs : List β) :
    ListOn conv n ls xs ↔ ∃ pre l, ls = pre ++ [l] ∧ ((allItems pre).length : Int) < n ∧
        n ≤ (allItems (pre ++ [l])).length ∧ ((lineItems l).length : Int) ≤ n ∧
        mapRes conv (allItems (pre ++ [l])) = .ok xs := by
  have ha : ∀ (pre : List Str) (l : Str), allItems (pre ++ [l]) = (pre.map lineItems).flatten ++ lineItems l := by
    intro pre l
    induction pre with
    | nil => simp [allItems]
    | cons a t ih => rw [List.cons_append, allItems_cons, ih]; simp
  have hb : ∀ pre : List Str, allItems pre = (pre.map lineItems).flatten := by
    intro pre
    induction pre with
    | nil => rfl
    | cons a t ih => rw [allItems_cons, ih]; simp
  unfold ListOn
  constructor
  · rintro ⟨pre, l, pw, lw, e, h1, h2, h3, h4, h5, h6⟩
    have := (lineWords_all _ _).1 h1; subst this
    have := (lineWords_iff _ _).1 h2; subst this
    refine ⟨pre, l, e, by rw [hb]; exact h3, ?_, h5, by rw [ha]; exact (mapRes_iff _ _ _).2 h6⟩
    rw [ha, List.length_append]; push_cast; exact h4
  · rintro ⟨pre, l, e, h3, h4, h5, h6⟩
    rw [hb] at h3
    rw [ha] at h4 h6
    refine ⟨pre, l, _, _, e, (lineWords_all _ _).2 rfl, (lineWords_iff _ _).2 rfl, h3, ?_, h5,
      (mapRes_iff _ _ _).1 h6⟩
    rw [List.length_append] at h4; push_cast at h4; exact h4

/-! ### Taking lines from a file -/

/-- `H` is what `readline` gives, call after call. -/
def Takes : List Str → List Str → List Str → Prop
  | ls, [], rest => rest = ls
  | ls, h :: H, rest => (readline ls).1 = h ∧ Takes (readline ls).2 H rest

theorem takes_append (A B : List Str) (ls rest : List Str) :
    Takes ls (A ++ B) rest ↔ ∃ mid, Takes ls A mid ∧ Takes mid B rest := by
  induction A generalizing ls with
  | nil => constructor
           · intro h; exact ⟨ls, rfl, h⟩
           · rintro ⟨mid, h1, h2⟩; cases h1; exact h2
  | cons a A ih =>
    simp only [List.cons_append, Takes, ih]
    constructor
    · rintro ⟨h, mid, h1, h2⟩; exact ⟨mid, ⟨h, h1⟩, h2⟩
    · rintro ⟨mid, ⟨h, h1⟩, h2⟩; exact ⟨h, mid, h1, h2⟩

theorem takes_nil (H rest : List Str) : Takes [] H rest ↔ rest = [] ∧ ∃ m, H = List.replicate m [] := by
  induction H with
  | nil => simp only [Takes]
           exact ⟨fun h => ⟨h, 0, rfl⟩, fun h => h.1⟩
  | cons h H ih =>
    simp only [Takes, readline, ih]
    constructor
    · rintro ⟨rfl, h1, m, rfl⟩; exact ⟨h1, m + 1, rfl⟩
    · rintro ⟨h1, m, e⟩
      cases m with
      | zero => cases e
      | succ m => injection e with e1 e2; exact ⟨e1.symm, h1, m, e2⟩

theorem takes_iff (ls H rest : List Str) : Takes ls H rest ↔ BeginsWith ls H rest := by
  unfold BeginsWith
  induction H generalizing ls with
  | nil =>
    simp only [Takes, List.nil_append]
    constructor
    · intro h; exact .inl h.symm
    · rintro (h | ⟨h, m, e⟩)
      · exact h.symm
      · rw [List.nil_eq_append_iff] at e
        rw [h, e.1]
  | cons h H ih =>
    cases ls with
    | nil =>
      rw [takes_nil]
      constructor
      · rintro ⟨h1, m, e⟩; exact .inr ⟨h1, m, e⟩
      · rintro (h1 | ⟨h1, m, e⟩)
        · cases h1
        · exact ⟨h1, m, e⟩
    | cons l ls =>
      simp only [Takes, readline, ih, List.cons_append, List.cons.injEq]
      constructor
      · rintro ⟨rfl, h1 | ⟨h1, m, e⟩⟩
        · exact .inl ⟨rfl, h1⟩
        · exact .inr ⟨h1, m, rfl, e⟩
      · rintro (⟨h1, h2⟩ | ⟨h1, m, h2, e⟩)
        · exact ⟨h1, .inl h2⟩
        · exact ⟨h2.symm, .inr ⟨h1, m, e⟩⟩

/-! ### Readers -/

/-- The reader `p` accepts exactly the layout `L`; `mk` puts together what it returns. -/
def Reads {α γ : Type} (mk : α → List Str → γ) (p : List Str → Res γ) (L : List Str → α → Prop) : Prop :=
  ∀ ls c, p ls = .ok c ↔ ∃ a rest H, c = mk a rest ∧ Takes ls H rest ∧ L H a

theorem Reads.congr {α γ : Type} {mk : α → List Str → γ} {p : List Str → Res γ} {L L' : List Str → α → Prop}
    (h : Reads mk p L) (hl : ∀ H a, L H a ↔ L' H a) : Reads mk p L' := by
  intro ls c
  rw [h ls c]
  simp only [hl]

theorem Reads.pure {α γ : Type} (mk : α → List Str → γ) (a : α) :
    Reads mk (fun ls => .ok (mk a ls)) (fun H b => H = [] ∧ b = a) := by
  intro ls c
  constructor
  · intro h; injection h with h; exact ⟨a, ls, [], h.symm, rfl, rfl, rfl⟩
  · rintro ⟨b, rest, H, e, ht, rfl, rfl⟩
    cases ht
    rw [e]

theorem Reads.bind {α β γ δ : Type} {mk : α → List Str → γ} {mk2 : β → List Str → δ} {p : List Str → Res γ}
    {k : γ → Res δ} {L : List Str → α → Prop} {M : α → List Str → β → Prop} (hp : Reads mk p L)
    (hq : ∀ a, Reads mk2 (fun ls => k (mk a ls)) (M a)) :
    Reads mk2 (fun ls => p ls >>= k) (fun H b => ∃ a H1 H2, H = H1 ++ H2 ∧ L H1 a ∧ M a H2 b) := by
  intro ls c
  constructor
  · intro h
    obtain ⟨x, h1, h2⟩ := ok_of_bind h
    obtain ⟨a, mid, H1, rfl, t1, l1⟩ := (hp _ _).1 h1
    obtain ⟨b, rest, H2, e, t2, m2⟩ := (hq a _ _).1 h2
    exact ⟨b, rest, H1 ++ H2, e, (takes_append _ _ _ _).2 ⟨mid, t1, t2⟩, a, H1, H2, rfl, l1, m2⟩
  · rintro ⟨b, rest, _, e, ht, a, H1, H2, rfl, l1, m2⟩
    obtain ⟨mid, t1, t2⟩ := (takes_append _ _ _ _).1 ht
    have h1 := (hp ls _).2 ⟨a, mid, H1, rfl, t1, l1⟩
    have h2 := (hq a mid c).2 ⟨b, rest, H2, e, t2, m2⟩
    show (p ls >>= k) = _
    rw [h1]
    exact h2

theorem Reads.bind2 {α β δ : Type} {mk2 : β → List Str → δ} {p : List Str → Res (α × List Str)}
    {q : α → List Str → Res δ} {L : List Str → α → Prop} {M : α → List Str → β → Prop} (hp : Reads Prod.mk p L)
    (hq : ∀ a, Reads mk2 (q a) (M a)) :
    Reads mk2 (fun ls => p ls >>= fun x => q x.1 x.2) (fun H b => ∃ a H1 H2, H = H1 ++ H2 ∧ L H1 a ∧ M a H2 b) :=
  Reads.bind hp hq

theorem Reads.res {α β δ : Type} {mk2 : β → List Str → δ} (r : Res α) {k : α → List Str → Res δ}
    {M : α → List Str → β → Prop} (hq : ∀ a, Reads mk2 (k a) (M a)) :
    Reads mk2 (fun ls => r >>= fun a => k a ls) (fun H b => ∃ a, r = .ok a ∧ M a H b) := by
  intro ls c
  constructor
  · intro h
    obtain ⟨x, h1, h2⟩ := ok_of_bind h
    obtain ⟨b, rest, H2, e, t2, m2⟩ := (hq x _ _).1 h2
    exact ⟨b, rest, H2, e, t2, x, h1, m2⟩
  · rintro ⟨b, rest, H, e, ht, a, h1, m2⟩
    have h2 := (hq a ls c).2 ⟨b, rest, H, e, ht, m2⟩
    show (r >>= fun a => k a ls) = _
    rw [h1]
    exact h2

theorem Reads.ite {α γ : Type} {mk : α → List Str → γ} {c : Prop} [Decidable c] {p q : List Str → Res γ}
    {L : List Str → α → Prop} (hp : c → Reads mk p L) (hq : ¬ c → Reads mk q L) :
    Reads mk (fun ls => if c then p ls else q ls) L := by
  by_cases h : c
  · intro ls; dsimp only; rw [if_pos h]; exact hp h ls
  · intro ls; dsimp only; rw [if_neg h]; exact hq h ls

theorem Reads.line {β δ : Type} {mk2 : β → List Str → δ} {q : Str → List Str → Res δ}
    {M : Str → List Str → β → Prop} (hq : ∀ l, Reads mk2 (q l) (M l)) :
    Reads mk2 (fun ls => q (readline ls).1 (readline ls).2) (fun H b => ∃ l H2, H = l :: H2 ∧ M l H2 b) := by
  intro ls c
  constructor
  · intro h
    obtain ⟨b, rest, H2, e, t2, m2⟩ := (hq _ _ _).1 h
    exact ⟨b, rest, _ :: H2, e, ⟨rfl, t2⟩, _, H2, rfl, m2⟩
  · rintro ⟨b, rest, _, e, ht, l, H2, rfl, m2⟩
    obtain ⟨rfl, t2⟩ := ht
    exact (hq _ _ c).2 ⟨b, rest, H2, e, t2, m2⟩

theorem takes_lines (n : Nat) (ls : List Str) : ∃ H, Takes ls H (readLinesN n ls).2 ∧ H.length = n ∧
    (readLinesN n ls).1 = H.map strip := by
  induction n generalizing ls with
  | zero => exact ⟨[], rfl, rfl, rfl⟩
  | succ n ih =>
    obtain ⟨H, h1, h2, h3⟩ := ih (readline ls).2
    exact ⟨(readline ls).1 :: H, ⟨rfl, h1⟩, by rw [List.length_cons, h2], by
      rw [List.map_cons, ← h3]; rfl⟩

theorem takes_det {ls H rest : List Str} {H' rest' : List Str} (h : Takes ls H rest) (h' : Takes ls H' rest')
    (hl : H.length = H'.length) : H = H' ∧ rest = rest' := by
  induction H generalizing ls H' with
  | nil => cases H' with
    | nil => cases h; cases h'; exact ⟨rfl, rfl⟩
    | cons a t => simp at hl
  | cons a H ih => cases H' with
    | nil => simp at hl
    | cons a' H' =>
      obtain ⟨e, h⟩ := h
      obtain ⟨e', h'⟩ := h'
      obtain ⟨r1, r2⟩ := ih h h' (by simpa using hl)
      exact ⟨by rw [← e, ← e', r1], r2⟩

theorem Reads.lines {β δ : Type} {mk2 : β → List Str → δ} (n : Nat) {q : List Str → List Str → Res δ}
    {M : List Str → List Str → β → Prop} (hq : ∀ xs, Reads mk2 (q xs) (M xs)) :
    Reads mk2 (fun ls => q (readLinesN n ls).1 (readLinesN n ls).2)
      (fun H b => ∃ H1 H2, H = H1 ++ H2 ∧ H1.length = n ∧ M (H1.map strip) H2 b) := by
  intro ls c
  obtain ⟨H0, t0, hl, hx⟩ := takes_lines n ls
  constructor
  · intro h
    obtain ⟨b, rest, H2, e, t2, m2⟩ := (hq _ _ _).1 h
    exact ⟨b, rest, _, e, (takes_append _ _ _ _).2 ⟨_, t0, t2⟩, H0, H2, rfl, hl, hx ▸ m2⟩
  · rintro ⟨b, rest, _, e, ht, H1, H2, rfl, hl1, m2⟩
    obtain ⟨mid, t1, t2⟩ := (takes_append _ _ _ _).1 ht
    obtain ⟨rfl, rfl⟩ := takes_det t1 t0 (by rw [hl, hl1])
    exact (hq _ _ c).2 ⟨b, rest, H2, e, t2, hx ▸ m2⟩

theorem takes_ignored (n : Nat) (ls : List Str) : ∃ H, Takes ls H (readIgnored n ls).2 ∧ H.length = n ∧
    (readIgnored n ls).1 = H.map readItem := by
  induction n generalizing ls with
  | zero => exact ⟨[], rfl, rfl, rfl⟩
  | succ n ih =>
    obtain ⟨H, h1, h2, h3⟩ := ih (readline ls).2
    exact ⟨(readline ls).1 :: H, ⟨rfl, h1⟩, by rw [List.length_cons, h2], by
      rw [List.map_cons, ← h3]; rfl⟩

theorem Reads.ignored {β δ : Type} {mk2 : β → List Str → δ} (n : Nat) {q : List Str → List Str → Res δ}
    {M : List Str → List Str → β → Prop} (hq : ∀ xs, Reads mk2 (q xs) (M xs)) :
    Reads mk2 (fun ls => q (readIgnored n ls).1 (readIgnored n ls).2)
      (fun H b => ∃ H1 H2, H = H1 ++ H2 ∧ H1.length = n ∧ M (H1.map readItem) H2 b) := by
  intro ls c
  obtain ⟨H0, t0, hl, hx⟩ := takes_ignored n ls
  constructor
  · intro h
    obtain ⟨b, rest, H2, e, t2, m2⟩ := (hq _ _ _).1 h
    exact ⟨b, rest, _, e, (takes_append _ _ _ _).2 ⟨_, t0, t2⟩, H0, H2, rfl, hl, hx ▸ m2⟩
  · rintro ⟨b, rest, _, e, ht, H1, H2, rfl, hl1, m2⟩
    obtain ⟨mid, t1, t2⟩ := (takes_append _ _ _ _).1 ht
    obtain ⟨rfl, rfl⟩ := takes_det t1 t0 (by rw [hl, hl1])
    exact (hq _ _ c).2 ⟨b, rest, H2, e, t2, hx ▸ m2⟩

theorem reads_list {β : Type} (conv : Str → Res β) (n : Int) :
    Reads Prod.mk (readUnkFile n conv) (fun H xs => ListOn conv n H xs) := by
  rintro ls ⟨xs, rest⟩
  unfold readUnkFile
  rw [readUnk_ok_iff]
  constructor
  · rintro ⟨_, pre, l, e, h⟩
    refine ⟨xs, rest, pre ++ [l], rfl, (takes_iff _ _ _).2 (.inl (by simp [e])), ?_⟩
    exact (listOn_iff _ _ _ _).2 ⟨pre, l, rfl, h⟩
  · rintro ⟨xs', rest', H, e0, ht, hl⟩
    obtain ⟨rfl, rfl⟩ := Prod.mk.inj e0
    obtain ⟨pre, l, rfl, h1, h2, h3, h4⟩ := (listOn_iff _ _ _ _).1 hl
    refine ⟨by omega, pre, l, ?_, h1, h2, h3, h4⟩
    rcases (takes_iff _ _ _).1 ht with e | ⟨e, m, hm⟩
    · rw [e]; simp
    · cases m with
      | zero => rw [e]; simp at hm; exact hm.symm
      | succ m =>
        exfalso
        rw [List.replicate_succ', ← List.append_assoc] at hm
        have hh := List.append_inj' hm rfl
        have : l = [] := by simpa using hh.2
        subst this
        rw [show allItems (pre ++ [[]]) = allItems pre by simp [allItems]; decide] at h2
        omega

/-! ### Sections -/

theorem pyInt_nil (x : Int) : pyInt [] ≠ .ok x := by
  have : pyInt [] = .error .value := by decide
  rw [this]; exact fun h => by cases h

theorem stripped_all (ls xs : List Str) : List.Forall₂ Stripped ls xs ↔ xs = ls.map strip := by
  constructor
  · intro h
    induction h with
    | nil => rfl
    | cons h _ ih => rw [List.map_cons, ← ih, (stripped_iff _ _).1 h]
  · rintro rfl
    induction ls with
    | nil => exact .nil
    | cons l ls ih => exact .cons ((stripped_iff _ _).2 rfl) ih

theorem itemOn_all (ls xs : List Str) : List.Forall₂ ItemOn ls xs ↔ xs = ls.map readItem := by
  constructor
  · intro h
    induction h with
    | nil => rfl
    | cons h _ ih => rw [List.map_cons, ← ih, (itemOn_iff _ _).1 h]
  · rintro rfl
    induction ls with
    | nil => exact .nil
    | cons l ls ih => exact .cons ((itemOn_iff _ _).2 rfl) ih

theorem namesOn_iff (n : Int) (ls xs : List Str) :
    NamesOn n ls xs ↔ ls.length = n.toNat ∧ xs = readItemsFromLines (ls.map strip) := by
  unfold NamesOn
  refine and_congr_right fun hl => ?_
  clear hl
  unfold readItemsFromLines
  constructor
  · intro h
    induction h with
    | nil => rfl
    | cons h _ ih => rw [List.map_cons, List.map_cons, ← ih, (nameOn_iff _ _).1 h]
  · rintro rfl
    induction ls with
    | nil => exact .nil
    | cons l ls ih => exact .cons ((nameOn_iff _ _).2 rfl) ih

theorem reads_int : Reads Prod.mk readIntLine (fun H i => ∃ l, H = [l] ∧ IntOn l i) := by
  refine Reads.congr (Reads.line fun l => Reads.res (readItemInt l) fun i => Reads.pure Prod.mk i) ?_
  intro H a
  simp only [intOn_iff]
  constructor
  · rintro ⟨l, _, rfl, i, h, rfl, rfl⟩; exact ⟨l, rfl, h⟩
  · rintro ⟨l, rfl, h⟩; exact ⟨l, _, rfl, a, h, rfl, rfl⟩

theorem reads_vars (cd : Codec F) : Reads Prod.mk (readVars cd) (VarsOn cd) := by
  refine Reads.congr (Reads.bind reads_int fun nv => Reads.bind (reads_list cd.float nv) fun scal =>
    Reads.bind (reads_list cd.float nv) fun miss => Reads.lines nv.toNat fun xs =>
      Reads.pure Prod.mk ({ NV := nv, VSCAL := scal, VMISS := miss, VNAME := readItemsFromLines xs } : VarHdr F)) ?_
  intro H v
  unfold VarsOn
  simp only [namesOn_iff]
  constructor
  · rintro ⟨nv, _, _, rfl, ⟨l, rfl, hl⟩, scal, h1, _, rfl, hs, miss, h2, _, rfl, hm, names, _, rfl, hn, rfl, rfl⟩
    exact ⟨l, h1, h2, names, by simp, hl, hs, hm, hn, rfl⟩
  · rintro ⟨l, h1, h2, names, rfl, hl, hs, hm, hn, hx⟩
    exact ⟨v.NV, [l], _, rfl, ⟨l, rfl, hl⟩, v.VSCAL, h1, _, rfl, hs, v.VMISS, h2, _, rfl, hm, names, [], by simp, hn,
      rfl, by rw [← hx]⟩

theorem reads_aux (cd : Codec F) : Reads Prod.mk (readAux cd) (AuxOn cd) := by
  have key : ∀ nauxv : Int, Reads (γ := AuxHdr F × List Str) Prod.mk (fun ls =>
      if nauxv > 0 then do
        let (ascal, ls) ← readUnkFile nauxv cd.float ls
        let (amiss, ls) ← readUnkFile nauxv cd.float ls
        let (names, ls) := readLinesN nauxv.toNat ls
        .ok ({ NAUXV := nauxv, ASCAL := ascal, AMISS := amiss, ANAME := readItemsFromLines names }, ls)
      else .ok ({ NAUXV := nauxv, ASCAL := [], AMISS := [], ANAME := [] }, ls))
      (fun more a => a.NAUXV = nauxv ∧
        ((0 < a.NAUXV ∧ ∃ scal miss names, more = scal ++ (miss ++ names) ∧ ListOn cd.float a.NAUXV scal a.ASCAL ∧
          ListOn cd.float a.NAUXV miss a.AMISS ∧ NamesOn a.NAUXV names a.ANAME) ∨
        (a.NAUXV ≤ 0 ∧ more = [] ∧ a.ASCAL = [] ∧ a.AMISS = [] ∧ a.ANAME = []))) := by
    intro nauxv
    refine Reads.ite ?_ ?_ <;> intro h
    · refine Reads.congr (Reads.bind (reads_list cd.float nauxv) fun scal =>
        Reads.bind (reads_list cd.float nauxv) fun miss => Reads.lines nauxv.toNat fun xs =>
          Reads.pure Prod.mk
            ({ NAUXV := nauxv, ASCAL := scal, AMISS := miss, ANAME := readItemsFromLines xs } : AuxHdr F)) ?_
      intro H a
      simp only [namesOn_iff]
      constructor
      · rintro ⟨scal, h1, _, rfl, hs, miss, h2, _, rfl, hm, names, _, rfl, hn, rfl, rfl⟩
        exact ⟨rfl, .inl ⟨h, h1, h2, names, by simp, hs, hm, hn, rfl⟩⟩
      · rintro ⟨rfl, ⟨_, h1, h2, names, rfl, hs, hm, hn, hx⟩ | ⟨h0, _⟩⟩
        · exact ⟨a.ASCAL, h1, _, rfl, hs, a.AMISS, h2, _, rfl, hm, names, [], by simp, hn, rfl, by rw [← hx]⟩
        · omega
    · refine Reads.congr (Reads.pure Prod.mk ({ NAUXV := nauxv, ASCAL := [], AMISS := [], ANAME := [] } : AuxHdr F)) ?_
      intro H a
      constructor
      · rintro ⟨rfl, rfl⟩; exact ⟨rfl, .inr ⟨by simpa using h, rfl, rfl, rfl, rfl⟩⟩
      · rintro ⟨rfl, ⟨h0, _⟩ | ⟨_, h1, h2, h3, h4⟩⟩
        · exact absurd h0 h
        · exact ⟨h1, by rw [← h2]; cases a; simp_all⟩
  refine Reads.congr (Reads.bind reads_int key) ?_
  intro H a
  unfold AuxOn
  constructor
  · rintro ⟨nauxv, _, more, rfl, ⟨l, rfl, hl⟩, rfl, h⟩; exact ⟨l, more, rfl, hl, h⟩
  · rintro ⟨l, more, rfl, hl, h⟩; exact ⟨_, [l], more, rfl, ⟨l, rfl, hl⟩, rfl, h⟩

theorem reads_charAux (cd : Codec F) : Reads Prod.mk (readCharAux cd) (CharAuxOn cd) := by
  have key : ∀ nauxv nauxc : Int, Reads (γ := CharAuxHdr F × List Str) Prod.mk (fun ls =>
      if nauxv > 0 then do
        let (ascal, ls) ← readUnkFile (nauxv - nauxc) cd.float ls
        let (amiss, ls) ← readUnkFile (nauxv - nauxc) cd.float ls
        let (lena, ls) ← readUnkFile nauxc pyInt ls
        let (amissc, ls) ← readUnkFile nauxc (fun s => (.ok s : Res Str)) ls
        let (names, ls) := readLinesN nauxv.toNat ls
        .ok ({ NAUXV := nauxv, NAUXC := nauxc, ASCAL := ascal,
               AMISS := amiss.map .num ++ amissc.map .str,
               LENA := List.replicate (nauxv - nauxc).toNat none ++ lena.map some,
               ANAME := readItemsFromLines names }, ls)
      else .ok ({ NAUXV := nauxv, NAUXC := nauxc, ASCAL := [], AMISS := [], LENA := [], ANAME := [] }, ls))
      (fun more a => a.NAUXV = nauxv ∧ a.NAUXC = nauxc ∧
        ((0 < a.NAUXV ∧ ∃ scal miss lena missc names nums texts lens,
          more = scal ++ (miss ++ (lena ++ (missc ++ names))) ∧
          ListOn cd.float (a.NAUXV - a.NAUXC) scal a.ASCAL ∧ ListOn cd.float (a.NAUXV - a.NAUXC) miss nums ∧
          ListOn pyInt a.NAUXC lena lens ∧ ListOn (fun s => .ok s) a.NAUXC missc texts ∧
          a.AMISS = nums.map .num ++ texts.map .str ∧
          a.LENA = List.replicate (a.NAUXV - a.NAUXC).toNat none ++ lens.map some ∧
          NamesOn a.NAUXV names a.ANAME) ∨
        (a.NAUXV ≤ 0 ∧ more = [] ∧ a.ASCAL = [] ∧ a.AMISS = [] ∧ a.LENA = [] ∧ a.ANAME = []))) := by
    intro nauxv nauxc
    refine Reads.ite ?_ ?_ <;> intro h
    · refine Reads.congr (Reads.bind (reads_list cd.float (nauxv - nauxc)) fun scal =>
        Reads.bind (reads_list cd.float (nauxv - nauxc)) fun miss =>
        Reads.bind (reads_list pyInt nauxc) fun lena =>
        Reads.bind (reads_list (fun s => (.ok s : Res Str)) nauxc) fun missc =>
        Reads.lines nauxv.toNat fun xs =>
          Reads.pure Prod.mk
            ({ NAUXV := nauxv, NAUXC := nauxc, ASCAL := scal, AMISS := miss.map .num ++ missc.map .str,
               LENA := List.replicate (nauxv - nauxc).toNat none ++ lena.map some,
               ANAME := readItemsFromLines xs } : CharAuxHdr F)) ?_
      intro H a
      simp only [namesOn_iff]
      constructor
      · rintro ⟨scal, h1, _, rfl, hs, miss, h2, _, rfl, hm, lena, h3, _, rfl, hlen, missc, h4, _, rfl, hmc, names, _,
          rfl, hn, rfl, rfl⟩
        exact ⟨rfl, rfl, .inl ⟨h, h1, h2, h3, h4, names, miss, missc, lena, by simp, hs, hm, hlen, hmc, rfl, rfl, hn,
          rfl⟩⟩
      · rintro ⟨rfl, rfl, ⟨_, h1, h2, h3, h4, names, miss, missc, lena, rfl, hs, hm, hlen, hmc, e1, e2, hn, hx⟩ |
          ⟨h0, _⟩⟩
        · exact ⟨a.ASCAL, h1, _, rfl, hs, miss, h2, _, rfl, hm, lena, h3, _, rfl, hlen, missc, h4, _, rfl, hmc, names,
            [], by simp, hn, rfl, by rw [← hx, ← e1, ← e2]⟩
        · omega
    · refine Reads.congr (Reads.pure Prod.mk
        ({ NAUXV := nauxv, NAUXC := nauxc, ASCAL := [], AMISS := [], LENA := [], ANAME := [] } : CharAuxHdr F)) ?_
      intro H a
      constructor
      · rintro ⟨rfl, rfl⟩; exact ⟨rfl, rfl, .inr ⟨by simpa using h, rfl, rfl, rfl, rfl, rfl⟩⟩
      · rintro ⟨rfl, rfl, ⟨h0, _⟩ | ⟨_, h1, h2, h3, h4, h5⟩⟩
        · exact absurd h0 h
        · exact ⟨h1, by cases a; simp_all⟩
  refine Reads.congr (Reads.bind reads_int fun nauxv => Reads.bind reads_int (key nauxv)) ?_
  intro H a
  unfold CharAuxOn
  constructor
  · rintro ⟨nauxv, _, _, rfl, ⟨l, rfl, hl⟩, nauxc, _, more, rfl, ⟨l2, rfl, hl2⟩, rfl, rfl, h⟩
    exact ⟨l, l2, more, rfl, hl, hl2, h⟩
  · rintro ⟨l, l2, more, rfl, hl, hl2, h⟩
    exact ⟨_, [l], _, rfl, ⟨l, rfl, hl⟩, _, [l2], more, rfl, ⟨l2, rfl, hl2⟩, rfl, rfl, h⟩

theorem reads_coms : Reads Prod.mk readComments ComsOn := by
  have t (ns : Int) (sc : List Str) : Reads Prod.mk (fun ls => do
      let (nncoml, ls) ← readIntLine ls
      let (ncom, ls) := readLinesN nncoml.toNat ls
      .ok (({ NSCOML := ns, SCOM := sc, NNCOML := nncoml, NCOM := ncom } : ComHdr), ls)) _ :=
    Reads.bind reads_int fun nn => Reads.lines nn.toNat fun nc =>
      Reads.pure Prod.mk ({ NSCOML := ns, SCOM := sc, NNCOML := nn, NCOM := nc } : ComHdr)
  refine Reads.congr (Reads.bind reads_int fun ns => Reads.lines ns.toNat (t ns)) ?_
  intro H c
  unfold ComsOn
  simp only [stripped_all]
  constructor
  · rintro ⟨ns, _, _, rfl, ⟨l, rfl, hl⟩, sc, _, rfl, hsc, nn, _, _, rfl, ⟨l2, rfl, hl2⟩, nc, _, rfl, hnc, rfl, rfl⟩
    exact ⟨l, sc, l2, nc, by simp, hl, hsc, rfl, hl2, hnc, rfl⟩
  · rintro ⟨l, sc, l2, nc, rfl, hl, hsc, e1, hl2, hnc, e2⟩
    exact ⟨_, [l], _, rfl, ⟨l, rfl, hl⟩, sc, _, rfl, hsc, _, [l2], _, rfl, ⟨l2, rfl, hl2⟩, nc, [], by simp, hnc, rfl,
      by rw [← e1, ← e2]⟩

theorem reads_axes (cd : Codec F) (ns : List Int) : Reads Prod.mk (readAxes cd ns) (AxesOn cd ns) := by
  induction ns with
  | nil => exact Reads.pure Prod.mk []
  | cons n ns ih =>
    refine Reads.congr (Reads.bind (reads_list cd.float n) fun x => Reads.bind ih fun xs =>
      Reads.pure Prod.mk (x :: xs)) ?_
    intro H a
    constructor
    · rintro ⟨x, h1, _, rfl, hx, xs, h2, _, rfl, hxs, rfl, rfl⟩
      exact ⟨h1, h2, x, xs, by simp, rfl, hx, hxs⟩
    · rintro ⟨h1, h2, x, xs, rfl, rfl, hx, hxs⟩
      exact ⟨x, h1, _, rfl, hx, xs, h2, [], by simp, hxs, rfl, rfl⟩

/-- What `readCommon` and the readers of whole headers return. -/
def triple {α : Type} (a : α × List Str) (rest : List Str) : α × List Str × List Str := (a.1, a.2, rest)

theorem row_two {l : Str} {xs : List Int} (h : readItemsFromLine l 2 pyInt = .ok xs) : ∃ a b, xs = [a, b] := by
  obtain ⟨ws, _, hl, hf⟩ := (rowOn_iff pyInt_nil (by decide) _ _).2 h
  have := hf.length_eq
  match xs with
  | [a, b] => exact ⟨a, b, rfl⟩
  | [] => simp at this; subst this; simp at hl
  | [_] => simp at this; omega
  | _ :: _ :: _ :: _ => simp at this; omega

theorem row_six {l : Str} {xs : List Int} (h : readItemsFromLine l 6 pyInt = .ok xs) : xs.length = 6 := by
  obtain ⟨ws, _, hl, hf⟩ := (rowOn_iff pyInt_nil (by decide) _ _).2 h
  have := hf.length_eq
  omega

theorem reads_top (k : Nat) : Reads triple (readCommon k) (fun H a => TopOn k H a.1 a.2) := by
  intro ls c
  obtain ⟨H0, t0, hl0, hx0⟩ := takes_ignored k ls
  constructor
  · intro h
    unfold readCommon at h
    generalize hi : readIgnored k ls = p at h t0 hx0
    obtain ⟨ign, ls0⟩ := p
    dsimp only at h t0 hx0
    obtain ⟨xs, h1, h⟩ := ok_of_bind h
    obtain ⟨nl, ffi, rfl⟩ := row_two h1
    dsimp only at h
    obtain ⟨ys, h2, h⟩ := ok_of_bind h
    obtain ⟨iv, nv, rfl⟩ := row_two h2
    dsimp only at h
    obtain ⟨ds, h3, h⟩ := ok_of_bind h
    injection h with h
    subst h
    refine ⟨(_, ign), _, H0 ++ [_, _, _, _, _, _, _], rfl,
      (takes_append _ _ _ _).2 ⟨_, t0, rfl, rfl, rfl, rfl, rfl, rfl, rfl, rfl⟩, ?_⟩
    refine ⟨H0, _, _, _, _, _, _, _, nl, rfl, hl0, (itemOn_all _ _).2 hx0,
      (rowOn_iff pyInt_nil (by decide) _ _).2 h1, rfl, (itemOn_iff _ _).2 rfl, (itemOn_iff _ _).2 rfl,
      (itemOn_iff _ _).2 rfl, (itemOn_iff _ _).2 rfl, (rowOn_iff pyInt_nil (by decide) _ _).2 h2,
      (rowOn_iff pyInt_nil (by decide) _ _).2 ?_, ?_⟩
    · rw [List.take_append_drop]; exact h3
    · rw [List.length_take, row_six h3]; rfl
  · rintro ⟨⟨c, ign⟩, rest, H, rfl, ht, il, l0, l1, l2, l3, l4, l5, l6, nl, rfl, hk, hig, r0, hnl, i1, i2, i3, i4, r5, r6,
      hd⟩
    obtain ⟨mid, t1, t2⟩ := (takes_append _ _ _ _).1 ht
    obtain ⟨rfl, rfl⟩ := takes_det t1 t0 (by rw [hl0, hk])
    obtain ⟨e0, e1, e2, e3, e4, e5, e6, rfl⟩ := t2
    have q0 := (rowOn_iff pyInt_nil (by decide) _ _).1 r0
    have q5 := (rowOn_iff pyInt_nil (by decide) _ _).1 r5
    have q6 := (rowOn_iff pyInt_nil (by decide) _ _).1 r6
    rw [← e0] at q0
    rw [← e5] at q5
    rw [← e6] at q6
    have e := (itemOn_all _ _).1 hig
    have j1 := (itemOn_iff _ _).1 i1
    have j2 := (itemOn_iff _ _).1 i2
    have j3 := (itemOn_iff _ _).1 i3
    have j4 := (itemOn_iff _ _).1 i4
    rw [← e1] at j1
    rw [← e2] at j2
    rw [← e3] at j3
    rw [← e4] at j4
    rw [← hx0] at e
    cases c with
    | mk NLHEAD FFI ONAME ORG SNAME MNAME IVOL NVOL DATE RDATE =>
    dsimp only at e j1 j2 j3 j4 q0 q5 q6 hnl hd
    subst e j1 j2 j3 j4 hnl
    simp only [readCommon, q0, q5, q6, ok_bind, List.take_left' hd, List.drop_left' hd]
    rfl

end Nappy
