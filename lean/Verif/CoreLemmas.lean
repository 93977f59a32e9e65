import Verif.Core
import Verif.WriteLemmas
import Mathlib.Data.List.TakeWhile

/-! Lemmas about dictionaries, attribute tables and the pattern for names and units. -/

namespace Nappy

variable {F : Type}

theorem dictGet?_set {α : Type} (d : Dict α) (k k' : String) (v : α) :
    dictGet? (dictSet d k v) k' = if k = k' then some v else dictGet? d k' := by
  induction d with
  | nil => simp [dictSet, dictGet?]
  | cons a d ih =>
    obtain ⟨ka, va⟩ := a
    by_cases h : ka = k
    · subst h
      by_cases h2 : ka = k' <;> simp [dictSet, dictGet?, h2]
    · by_cases h2 : ka = k'
      · subst h2
        have : ¬ k = ka := fun e => h e.symm
        simp [dictSet, dictGet?, h, this]
      · simp [dictSet, dictGet?, h, h2, ih]

theorem dictGet?_append {α : Type} (a b : Dict α) (k : String) :
    dictGet? (a ++ b) k = (dictGet? a k).or (dictGet? b k) := by
  induction a with
  | nil => rfl
  | cons x a ih =>
    obtain ⟨kx, vx⟩ := x
    by_cases h : kx = k <;> simp [dictGet?, h, ih]

theorem absent_of_none {α : Type} {l : Dict α} {k : String} (h : dictGet? l k = none) : k ∉ l.map Prod.fst := by
  induction l with
  | nil => simp
  | cons kv t ih =>
    obtain ⟨k', v⟩ := kv
    unfold dictGet? at h
    split at h
    · cases h
    · rename_i hne
      simp only [List.map_cons, List.mem_cons, not_or]
      exact ⟨fun e => hne e.symm, ih h⟩

theorem dictGet?_mem {α : Type} {d : Dict α} {k : String} {v : α} (h : dictGet? d k = some v) :
    (k, v) ∈ d := by
  induction d with
  | nil => cases h
  | cons x d ih =>
    obtain ⟨kx, vx⟩ := x
    by_cases h2 : kx = k
    · simp only [dictGet?, h2, if_true, Option.some.injEq] at h
      simp [h, h2]
    · simp only [dictGet?, h2, if_false] at h
      simp [ih h]

theorem attr_setattr (c : NACore F) (k k' : String) (v : PyVal F) :
    (c.setattr k v).attr k' = if k = k' then v else c.attr k' := by
  unfold NACore.attr NACore.setattr
  rw [dictGet?_set]
  by_cases h : k = k' <;> simp [h]

theorem attr_foldl (l : Dict (PyVal F)) (c : NACore F) (k : String) :
    (l.foldl (fun c kv => c.setattr kv.1 kv.2) c).attr k = (dictGet? l.reverse k).getD (c.attr k) := by
  induction l generalizing c with
  | nil => rfl
  | cons x l ih =>
    rw [List.foldl_cons, ih, attr_setattr, List.reverse_cons, dictGet?_append]
    cases h : dictGet? l.reverse k with
    | some v => rfl
    | none => by_cases h2 : x.1 = k <;> simp [dictGet?, h2]

theorem naDict_foldl (l : Dict (PyVal F)) (c : NACore F) :
    (l.foldl (fun c kv => c.setattr kv.1 kv.2) c).naDict = c.naDict := by
  induction l generalizing c with
  | nil => rfl
  | cons x l ih => rw [List.foldl_cons, ih]; rfl

theorem attr_init (k : String) : (NACore.init : NACore F).attr k = .none := by
  unfold NACore.attr NACore.init
  generalize naKeys = ks
  dsimp only
  induction ks with
  | nil => rfl
  | cons a ks ih => by_cases h : a = k <;> simp [dictGet?, h, ih]

theorem collect_get (c : NACore F) (k : String) :
    dictGet? c.collect k = if k ∈ naKeys ∧ (c.attr k).isNone = false then some (c.attr k) else none := by
  unfold NACore.collect
  generalize naKeys = ks
  induction ks with
  | nil => rfl
  | cons a ks ih =>
    rw [List.filterMap_cons]
    cases ha : (c.attr a).isNone with
    | true =>
      simp only [if_true, ih]
      by_cases h : k = a
      · subst h; simp [ha]
      · simp [h]
    | false =>
      by_cases h : a = k
      · subst h; simp [dictGet?, ha]
      · have : ¬ k = a := fun e => h e.symm
        simp [dictGet?, h, ih, this]

theorem collect_keys (c : NACore F) :
    c.collect.map Prod.fst = naKeys.filter (fun k => !(c.attr k).isNone) := by
  unfold NACore.collect
  induction naKeys with
  | nil => rfl
  | cons a ks ih =>
    cases ha : (c.attr a).isNone <;> simp [ha, ih]

theorem core_get (ign : List Str) (o : Obj F) (k : String) :
    (o.core ign).attr k = (dictGet? (o.attrs ign).reverse k).getD .none := by
  unfold Obj.core
  rw [attr_foldl, attr_init]

/-! ### names and units -/

theorem unitsFrom_some {s u r : Str} (h : unitsFrom s = some (u, r)) :
    s = u ++ ')' :: r ∧ u ≠ [] ∧ ')' ∉ u.tail := by
  cases s with
  | nil => cases h
  | cons c cs =>
    unfold unitsFrom at h
    dsimp only at h
    have hs : cs.takeWhile (· != ')') ++ cs.dropWhile (· != ')') = cs := List.takeWhile_append_dropWhile
    split at h
    · cases h
    · rename_i b rest h2
      injection h with h
      obtain ⟨e1, e2⟩ := Prod.mk.inj h
      subst e1 e2
      have hb : b = ')' := by
        have := List.head?_dropWhile_not (p := (· != ')')) (l := cs)
        rw [h2] at this
        simpa using this
      subst hb
      rw [h2] at hs
      refine ⟨by rw [List.cons_append, hs], by simp, ?_⟩
      rw [List.tail_cons]
      intro hm
      have := List.mem_takeWhile_imp hm
      simp at this

theorem unitsFrom_eq {u r : Str} (hu : u ≠ []) (hn : ')' ∉ u.tail) :
    unitsFrom (u ++ ')' :: r) = some (u, r) := by
  cases u with
  | nil => exact absurd rfl hu
  | cons c u =>
    rw [List.tail_cons] at hn
    unfold unitsFrom
    rw [List.cons_append]
    have h1 : (u ++ ')' :: r).takeWhile (· != ')') = u := by
      rw [List.takeWhile_append_of_pos (by
        intro x hx; simp only [bne_iff_ne]; intro e; exact hn (e ▸ hx))]
      simp
    have h2 : (u ++ ')' :: r).dropWhile (· != ')') = ')' :: r := by
      rw [List.dropWhile_append_of_pos (by
        intro x hx; simp only [bne_iff_ne]; intro e; exact hn (e ▸ hx))]
      simp
    dsimp only
    rw [h1, h2]

theorem unitsFrom_none {s : Str} (h : unitsFrom s = none) : ')' ∉ s.tail := by
  cases s with
  | nil => simp
  | cons c cs =>
    unfold unitsFrom at h
    dsimp only at h
    split at h
    · rename_i h2
      intro hm
      rw [List.tail_cons] at hm
      have hs : cs.takeWhile (· != ')') ++ cs.dropWhile (· != ')') = cs := List.takeWhile_append_dropWhile
      rw [h2, List.append_nil] at hs
      rw [← hs] at hm
      have := List.mem_takeWhile_imp hm
      simp at this
    · cases h

/-- No bracket in the text can open units: there is no closing bracket with a character between. -/
theorem splitUnits_none {s : Str} :
    splitUnits s = none ↔ ∀ a b, s = a ++ '(' :: b → ')' ∉ b.tail := by
  induction s with
  | nil => constructor
           · intro _ a b h; simp at h
           · intro _; rfl
  | cons c cs ih =>
    unfold splitUnits
    cases hs : splitUnits cs with
    | some r =>
      obtain ⟨v1, u, v2⟩ := r
      constructor
      · intro h; cases h
      · intro h
        have := ih.2 (fun a b e => h (c :: a) b (by rw [e]; rfl))
        rw [hs] at this; cases this
    | none =>
      have hcs := ih.1 hs
      dsimp only
      by_cases hc : c = '('
      · subst hc
        rw [if_pos rfl]
        cases hu : unitsFrom cs with
        | some r =>
          obtain ⟨u, v2⟩ := r
          constructor
          · intro h; cases h
          · intro h
            obtain ⟨e, hne, _⟩ := unitsFrom_some hu
            have := h [] cs rfl
            rw [e] at this
            cases u with
            | nil => exact absurd rfl hne
            | cons x u => simp at this
        | none =>
          refine ⟨fun _ a b e => ?_, fun _ => rfl⟩
          cases a with
          | nil => simp only [List.nil_append, List.cons.injEq, true_and] at e
                   rw [← e]; exact unitsFrom_none hu
          | cons x a => simp only [List.cons_append, List.cons.injEq] at e; exact hcs a b e.2
      · rw [if_neg hc]
        refine ⟨fun _ a b e => ?_, fun _ => rfl⟩
        cases a with
        | nil => simp only [List.nil_append, List.cons.injEq] at e; exact absurd e.1 hc
        | cons x a => simp only [List.cons_append, List.cons.injEq] at e; exact hcs a b e.2

theorem splitUnits_some {s v1 u v2 : Str} :
    splitUnits s = some (v1, u, v2) ↔ s = v1 ++ '(' :: (u ++ ')' :: v2) ∧ u ≠ [] ∧ ')' ∉ u.tail ∧
      ∀ a b, u ++ ')' :: v2 = a ++ '(' :: b → ')' ∉ b.tail := by
  induction s generalizing v1 u v2 with
  | nil => constructor
           · intro h; cases h
           · intro h; have := h.1; simp at this
  | cons c cs ih =>
    unfold splitUnits
    cases hs : splitUnits cs with
    | some r =>
      obtain ⟨w1, w, w2⟩ := r
      have hw := ih.1 hs
      dsimp only
      constructor
      · intro h
        injection h with h
        obtain ⟨e1, h⟩ := Prod.mk.inj h
        obtain ⟨e2, e3⟩ := Prod.mk.inj h
        subst e1 e2 e3
        exact ⟨by rw [hw.1]; rfl, hw.2⟩
      · intro ⟨e, h⟩
        cases v1 with
        | nil =>
          exfalso
          simp only [List.nil_append, List.cons.injEq] at e
          have hn := splitUnits_none.2 h.2.2
          rw [← e.2, hs] at hn
          cases hn
        | cons x v1 =>
          simp only [List.cons_append, List.cons.injEq] at e
          have := ih.2 ⟨e.2, h⟩
          rw [hs] at this
          injection this with this
          obtain ⟨e1, this⟩ := Prod.mk.inj this
          obtain ⟨e2, e3⟩ := Prod.mk.inj this
          subst e1 e2 e3
          rw [e.1]
    | none =>
      dsimp only
      by_cases hc : c = '('
      · subst hc
        rw [if_pos rfl]
        constructor
        · intro h
          cases hu : unitsFrom cs with
          | none => rw [hu] at h; cases h
          | some r =>
            obtain ⟨w, w2⟩ := r
            rw [hu] at h
            injection h with h
            obtain ⟨e1, h⟩ := Prod.mk.inj h
            obtain ⟨e2, e3⟩ := Prod.mk.inj h
            subst e1 e2 e3
            obtain ⟨e, hne, ht⟩ := unitsFrom_some hu
            exact ⟨by rw [e]; rfl, hne, ht, fun a b h => splitUnits_none.1 hs a b (by rw [e, h])⟩
        · intro ⟨e, h1, h2, h3⟩
          cases v1 with
          | nil =>
            simp only [List.nil_append, List.cons.injEq, true_and] at e
            rw [e, unitsFrom_eq h1 h2]
          | cons x v1 =>
            simp only [List.cons_append, List.cons.injEq] at e
            have := ih.2 ⟨e.2, h1, h2, h3⟩
            rw [hs] at this; cases this
      · rw [if_neg hc]
        constructor
        · intro h; cases h
        · intro ⟨e, h⟩
          cases v1 with
          | nil => simp only [List.nil_append, List.cons.injEq] at e; exact absurd e.1 hc
          | cons x v1 =>
            simp only [List.cons_append, List.cons.injEq] at e
            have := ih.2 ⟨e.2, h⟩
            rw [hs] at this; cases this

theorem lstrip_cons_of {c : Char} {s : Str} (h : isSpace c = false) : lstrip (c :: s) = c :: s := by
  simp [lstrip, h]

theorem takeWhile_all {α : Type} {p : α → Bool} {l : List α} (h : ∀ x ∈ l, p x = true) :
    l.takeWhile p = l ∧ l.dropWhile p = [] :=
  ⟨List.takeWhile_eq_self_iff.2 h, List.dropWhile_eq_nil_iff.2 h⟩

theorem unitsMatch_line {item : Str} (h : '\n' ∉ item) : unitsMatch item = splitUnits (lstrip item) := by
  unfold unitsMatch
  have hn : ∀ x ∈ lstrip item, (x != '\n') = true := by
    intro x hx
    simp only [bne_iff_ne]
    intro e
    exact h (e ▸ (List.dropWhile_sublist _).subset hx)
  obtain ⟨h1, h2⟩ := takeWhile_all hn
  dsimp only
  rw [h1, h2]
  rfl

/-- Leading white space only lengthens the first part. -/
theorem splitUnits_lstrip (item : Str) :
    splitUnits (lstrip item) = (splitUnits item).map (fun r => (lstrip r.1, r.2)) := by
  induction item with
  | nil => rfl
  | cons c cs ih =>
    by_cases hc : isSpace c = true
    · have h1 : lstrip (c :: cs) = lstrip cs := by simp [lstrip, hc]
      have hp : c ≠ '(' := by intro e; subst e; revert hc; decide
      rw [h1, ih]
      conv => rhs; unfold splitUnits
      cases splitUnits cs with
      | none => simp [hp]
      | some r =>
        obtain ⟨v1, u, v2⟩ := r
        have : lstrip (c :: v1) = lstrip v1 := by simp [lstrip, hc]
        simp [this]
    · have hf : isSpace c = false := by simpa using hc
      rw [lstrip_cons_of hf]
      cases hs : splitUnits (c :: cs) with
      | none => rfl
      | some r =>
        obtain ⟨v1, u, v2⟩ := r
        have e := (splitUnits_some.1 hs).1
        cases v1 with
        | nil => rfl
        | cons x v1 =>
          simp only [List.cons_append, List.cons.injEq] at e
          have hx : isSpace x = false := by rw [← e.1]; exact hf
          simp only [Option.map_some]
          rw [lstrip_cons_of hx]

end Nappy
