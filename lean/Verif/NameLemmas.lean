import Verif.Spec.Names
import Verif.CollectObj

/-! Lemmas about counting and replacing parts of a text, for `getBestName`, and about the spacing of axes. -/

namespace Nappy

open Spec

variable {F : Type}

/-- One part that is found leaves one place. -/
theorem countGo_pos {sub : Str} : ∀ {s : Str} {k : Nat}, 1 ≤ countGo sub k s → ∃ a b, s.drop k = a ++ sub ++ b
  | [], k, h => by cases k <;> simp [countGo] at h
  | c :: cs, k + 1, h => by
    obtain ⟨a, b, e⟩ := countGo_pos (s := cs) (k := k) (by simpa [countGo] using h)
    exact ⟨a, b, by simpa using e⟩
  | c :: cs, 0, h => by
    rw [countGo] at h
    split at h
    · rename_i hp
      obtain ⟨t, ht⟩ := List.isPrefixOf_iff_prefix.1 hp
      exact ⟨[], t, by simp [ht]⟩
    · obtain ⟨a, b, e⟩ := countGo_pos h
      exact ⟨c :: a, b, by simpa using e⟩

/-- Two parts that are counted do not overlap. -/
theorem countGo_two {sub : Str} (hs : sub ≠ []) : ∀ {s : Str} {k : Nat}, 2 ≤ countGo sub k s →
    ∃ a b c, s.drop k = a ++ sub ++ b ++ sub ++ c
  | [], k, h => by cases k <;> simp [countGo] at h
  | c :: cs, k + 1, h => by
    obtain ⟨a, b, d, e⟩ := countGo_two hs (s := cs) (k := k) (by simpa [countGo] using h)
    exact ⟨a, b, d, by simpa using e⟩
  | c :: cs, 0, h => by
    rw [countGo] at h
    split at h
    · rename_i hp
      obtain ⟨t, ht⟩ := List.isPrefixOf_iff_prefix.1 hp
      obtain ⟨a, b, e⟩ := countGo_pos (sub := sub) (s := cs) (k := sub.length - 1) (by omega)
      refine ⟨[], a, b, ?_⟩
      have : cs.drop (sub.length - 1) = t := by
        cases sub with
        | nil => exact absurd rfl hs
        | cons d ds =>
          simp only [List.cons_append, List.cons.injEq] at ht
          rw [← ht.2]; simp
      rw [this] at e
      simp only [List.drop_zero, List.nil_append]
      rw [← ht, e]; simp
    · obtain ⟨a, b, d, e⟩ := countGo_two hs h
      exact ⟨c :: a, b, d, by simpa using e⟩

theorem countGo_skip {sub : Str} : ∀ (a s : Str), countGo sub a.length (a ++ s) = countGo sub 0 s
  | [], s => by simp
  | c :: a, s => by simp only [List.length_cons, List.cons_append, countGo]; exact countGo_skip a s

theorem replaceGo_skip {sub new : Str} : ∀ (a s : Str), replaceGo sub new a.length (a ++ s) = replaceGo sub new 0 s
  | [], s => by simp
  | c :: a, s => by simp only [List.length_cons, List.cons_append, replaceGo]; exact replaceGo_skip a s

/-- What happens at a part. -/
theorem replaceGo_at {sub new s : Str} (hs : sub ≠ []) :
    replaceGo sub new 0 (sub ++ s) = new ++ replaceGo sub new 0 s ∧
      countGo sub 0 (sub ++ s) = 1 + countGo sub 0 s := by
  cases sub with
  | nil => exact absurd rfl hs
  | cons c cs =>
    have hp : (c :: cs).isPrefixOf (c :: (cs ++ s)) = true :=
      List.isPrefixOf_iff_prefix.2 ⟨s, by simp⟩
    constructor
    · rw [List.cons_append, replaceGo, if_pos hp]
      congr 1
      exact replaceGo_skip cs s
    · rw [List.cons_append, countGo, if_pos hp]
      congr 1
      exact countGo_skip cs s

/-- In front of the first part nothing happens. -/
theorem replaceGo_before {sub new : Str} (hs : sub ≠ []) : ∀ (a s : Str),
    (∀ p q, a ++ s = p ++ sub ++ q → a.length ≤ p.length) →
    replaceGo sub new 0 (a ++ s) = a ++ replaceGo sub new 0 s ∧ countGo sub 0 (a ++ s) = countGo sub 0 s
  | [], s, _ => by simp
  | c :: a, s, h => by
    have hp : ¬ (sub.isPrefixOf (c :: (a ++ s)) = true) := by
      intro hp
      obtain ⟨t, ht⟩ := List.isPrefixOf_iff_prefix.1 hp
      have := h [] t (by simp [ht])
      simp at this
    obtain ⟨e1, e2⟩ := replaceGo_before (new := new) hs a s (fun p q e => by
      have := h (c :: p) q (by simp [e])
      simpa using this)
    constructor
    · rw [List.cons_append, replaceGo, if_neg hp, e1]; rfl
    · rw [List.cons_append, countGo, if_neg hp, e2]

/-- A part that ends in a bracket cannot begin in `a` and end in `b` if `b` has no such bracket. -/
theorem part_in_front {u a b p q : Str} (hb : ')' ∉ b) (e : a ++ b = p ++ bracketed u ++ q) :
    Occurs (bracketed u) a := by
  have e' : a ++ b = (p ++ '(' :: u ++ [')']) ++ q := by rw [e]; simp [bracketed]
  rcases List.append_eq_append_iff.1 e' with ⟨t, h1, h2⟩ | ⟨t, h1, h2⟩
  · rcases List.eq_nil_or_concat t with rfl | ⟨t', c, rfl⟩
    · exact ⟨p, [], by rw [List.append_nil] at h1; rw [← h1]; simp [bracketed]⟩
    · exfalso
      have h3 : (p ++ '(' :: u) ++ [')'] = (a ++ t') ++ [c] := by rw [h1]; simp
      obtain ⟨_, h4⟩ := List.append_inj' h3 rfl
      injection h4 with h4
      exact hb (by rw [h2, ← h4]; simp)
  · exact ⟨p, t, by rw [h1]; simp [bracketed]⟩

/-- The units are not in the name: they are counted once. -/
theorem countSub_new {name u : Str} (h : ¬ Occurs (bracketed u) name) :
    countSub (bracketed u) (name ++ [' '] ++ bracketed u) ≤ 1 := by
  by_cases hc : 2 ≤ countGo (bracketed u) 0 (name ++ [' '] ++ bracketed u)
  · exfalso
    obtain ⟨a, b, c, e⟩ := countGo_two (by simp [bracketed]) hc
    rw [List.drop_zero] at e
    have hlen := congrArg List.length e
    simp only [List.length_append, List.length_cons, List.length_nil] at hlen
    have e2 : (name ++ [' ']) ++ bracketed u = (a ++ bracketed u) ++ (b ++ bracketed u ++ c) := by rw [e]; simp
    rcases List.append_eq_append_iff.1 e2 with ⟨t, h1, h2⟩ | ⟨t, h1, h2⟩
    · have h3 := congrArg List.length h1
      simp only [List.length_append, List.length_cons, List.length_nil] at h3
      have ht : t = [] := List.length_eq_zero_iff.1 (by omega)
      rw [ht, List.append_nil] at h1
      have h4 : name ++ [' '] = (a ++ '(' :: u) ++ [')'] := by rw [← h1]; simp [bracketed]
      obtain ⟨_, h5⟩ := List.append_inj' h4 rfl
      exact absurd h5 (by decide)
    · have h3 : name ++ [' '] = a ++ bracketed u ++ t := h1
      exact h (part_in_front (b := [' ']) (by decide) h3)
  · unfold countSub; omega

/-- The units are in the name at one place: there they are taken out. -/
theorem withUnits_have {a b u : Str} (hu : ')' ∉ u) (ha : ¬ Occurs (bracketed u) a) (hb : ¬ Occurs (bracketed u) b) :
    withUnits (a ++ bracketed u ++ b) u = a ++ b ++ [' '] ++ bracketed u := by
  have hne : bracketed u ≠ [] := by simp [bracketed]
  have first : ∀ x y : Str, ¬ Occurs (bracketed u) x → ∀ p q, x ++ (bracketed u ++ y) = p ++ bracketed u ++ q →
      x.length ≤ p.length := by
    intro x y hx p q e
    by_cases hlt : p.length < x.length
    · exfalso
      have e1 : (x ++ '(' :: u) ++ (')' :: y) = (p ++ bracketed u) ++ q := by rw [← e]; simp [bracketed]
      rcases List.append_eq_append_iff.1 e1 with ⟨t, h1, h2⟩ | ⟨t, h1, h2⟩
      · have h3 := congrArg List.length h1
        simp only [List.length_append, List.length_cons, bracketed, List.length_nil] at h3
        have ht : t = [] := List.length_eq_zero_iff.1 (by omega)
        rw [ht, List.append_nil] at h1
        exact hx (part_in_front (b := '(' :: u) (p := p) (q := []) (by simp [hu]) (by rw [List.append_nil, h1]))
      · have h3 : x ++ '(' :: u = p ++ bracketed u ++ t := h1
        exact hx (part_in_front (b := '(' :: u) (by simp [hu]) h3)
    · omega
  have first' : ∀ x : Str, ¬ Occurs (bracketed u) x → ∀ p q, (x ++ [' ']) ++ (bracketed u ++ []) = p ++ bracketed u ++ q →
      (x ++ [' ']).length ≤ p.length := fun x hx =>
    first (x ++ [' ']) [] (fun ⟨p, q, e⟩ => hx (part_in_front (b := [' ']) (by decide) e))
  obtain ⟨r1, c1⟩ := replaceGo_before (new := []) hne a (bracketed u ++ (b ++ [' '] ++ (bracketed u ++ [])))
    (first a _ ha)
  obtain ⟨r2, c2⟩ := replaceGo_at (new := []) (s := b ++ [' '] ++ (bracketed u ++ [])) hne
  obtain ⟨r3, c3⟩ := replaceGo_before (new := []) hne (b ++ [' ']) (bracketed u ++ []) (first' b hb)
  obtain ⟨r4, c4⟩ := replaceGo_at (new := []) (s := []) hne
  have e : a ++ bracketed u ++ b ++ [' '] ++ bracketed u = a ++ (bracketed u ++ (b ++ [' '] ++ (bracketed u ++ []))) := by
    simp
  unfold withUnits countSub replaceSub
  dsimp only
  rw [e, c1, c2, c3, c4, r1, r2, r3, r4]
  rw [if_pos (by simp [countGo])]
  simp [replaceGo]

/-- Brackets that hold something stay. -/
theorem dropEmptyBrackets_units {s u : Str} (hu : u ≠ []) (hp : '(' ∉ u) :
    dropEmptyBrackets (s ++ bracketed u) = s ++ bracketed u := by
  unfold dropEmptyBrackets
  rw [if_neg]
  obtain ⟨u', c, rfl⟩ : ∃ u' c, u = u' ++ [c] := by
    rcases List.eq_nil_or_concat u with rfl | ⟨u', c, rfl⟩
    · exact absurd rfl hu
    · exact ⟨u', c, by simp⟩
  intro h
  have e : s ++ bracketed (u' ++ [c]) = (s ++ '(' :: u') ++ [c, ')'] := by simp [bracketed]
  rw [e] at h
  have hl : ((s ++ '(' :: u') ++ [c, ')']).length - 2 = (s ++ '(' :: u').length := by simp; omega
  rw [hl, List.drop_left] at h
  have h1 : c = '(' := (List.cons.inj (h.trans (show "()".toList = ['(', ')'] by decide))).1
  exact hp (by rw [h1]; simp)

theorem pickName_called (attrs : Dict Str) (id : Str) : pickName attrs id nameAttrs = calledBy attrs id := by
  unfold nameAttrs calledBy
  simp only [pickName]
  cases dictGet? attrs "long_name" <;> cases dictGet? attrs "standard_name" <;> cases dictGet? attrs "title" <;> rfl

theorem bestNameOf_eq (attrs : Dict Str) (id : Str) (units enc : Option Str) (h : calledBy attrs id ≠ []) :
    bestNameOf attrs id units enc = .ok (dropEmptyBrackets
      (if unitsOf units enc = [] then calledBy attrs id else withUnits (calledBy attrs id) (unitsOf units enc))) := by
  unfold bestNameOf unitsOf
  dsimp only
  rw [pickName_called, if_neg h]
  cases units with
  | none => rfl
  | some u => rfl

/-! ### Spacing -/

theorem allSteps_iff (env : XEnv F) (dx : F) : ∀ xs : List F, allSteps env dx xs = true ↔ Spaced env xs dx
  | [] => by simp [allSteps, Spaced]
  | [x] => by
    simp only [allSteps, true_iff]
    intro i a b h1 h2
    simp at h2
  | x :: y :: t => by
    rw [allSteps, Bool.and_eq_true, allSteps_iff env dx (y :: t)]
    constructor
    · rintro ⟨h1, h2⟩ i a b ha hb
      cases i with
      | zero =>
        simp only [List.getElem?_cons_zero, List.getElem?_cons_succ, Option.some.injEq, Nat.zero_add] at ha hb
        rw [← ha, ← hb]; exact h1
      | succ i => exact h2 i a b (by simpa using ha) (by simpa using hb)
    · intro h
      refine ⟨h 0 x y rfl rfl, fun i a b ha hb => h (i + 1) a b (by simpa using ha) (by simpa using hb)⟩

theorem firstStep_declared {env : XEnv F} {xs : List F} {dx : F} (h : firstStep env xs = .ok dx) :
    Declared env xs dx := by
  match xs, h with
  | [x], h =>
    injection h with h
    exact .inr ⟨h.symm, fun a b _ hb => by simp at hb⟩
  | x :: y :: t, h =>
    injection h with h
    by_cases hs : allSteps env (env.sub y x) (x :: y :: t) = true
    · rw [if_pos hs] at h
      exact .inl ⟨x, y, rfl, rfl, h.symm, (allSteps_iff env dx _).1 (h ▸ hs)⟩
    · rw [if_neg hs] at h
      refine .inr ⟨h.symm, fun a b ha hb hc => hs ((allSteps_iff env _ _).2 ?_)⟩
      injection ha with ha
      injection hb with hb
      subst ha hb; exact hc

theorem axisDef_declared {env : XEnv F} {ax : XAxis F} {d : AxisDef F} (h : axisDef env ax = .ok d) :
    Declared env ax.values d.DX ∧ d.NX = ax.values.length ∧ d.NXDEF = d.X.length ∧
      ((Spaced env ax.values d.DX ∧ d.X = ax.values.take 3) ∨ d.X = ax.values) := by
  unfold axisDef at h
  obtain ⟨name, h1, h2⟩ := ok_of_bind h
  clear h
  match hv : ax.values, h2 with
  | [], h2 =>
    injection h2 with h2; subst h2
    exact ⟨.inr ⟨rfl, by simp⟩, rfl, rfl, .inr rfl⟩
  | [x], h2 =>
    injection h2 with h2; subst h2
    exact ⟨.inr ⟨rfl, by simp⟩, rfl, rfl, .inr rfl⟩
  | x :: y :: t, h2 =>
    simp only at h2
    split at h2
    · rename_i hs
      injection h2 with h2; subst h2
      have hsp := (allSteps_iff env _ _).1 hs
      refine ⟨.inl ⟨x, y, rfl, rfl, rfl, hsp⟩, rfl, ?_, .inl ⟨hsp, rfl⟩⟩
      simp only [List.length_take]
      omega
    · rename_i hs
      injection h2 with h2; subst h2
      refine ⟨.inr ⟨rfl, fun a b ha hb hc => hs ((allSteps_iff env _ _).2 ?_)⟩, rfl, rfl, .inr rfl⟩
      injection ha with ha
      injection hb with hb
      subst ha hb; exact hc

end Nappy
