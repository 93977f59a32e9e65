import Verif.Spec.Compare
import Verif.CommentLemmas
import Verif.WriteLemmas
import Mathlib.Tactic.Linarith

/-! Lemmas about the comparison of files. -/

namespace Nappy

open Spec

variable {F : Type}

theorem splitSubGo_ne (sep : Str) : ∀ (k : Nat) (s : Str), splitSubGo sep k s ≠ []
  | _, [] => by simp [splitSubGo]
  | k + 1, _ :: cs => by simp only [splitSubGo]; exact splitSubGo_ne sep k cs
  | 0, c :: cs => by
    simp only [splitSubGo]
    split
    · simp
    · split <;> simp

theorem join_cons_ne (sep a : Str) (l : List Str) (h : l ≠ []) : join sep (a :: l) = a ++ sep ++ join sep l := by
  cases l with
  | nil => exact absurd rfl h
  | cons b t => rfl

theorem splitSubGo_join (sep : Str) (hs : sep ≠ []) : ∀ (k : Nat) (s : Str), join sep (splitSubGo sep k s) = s.drop k
  | k, [] => by simp [splitSubGo, join]
  | k + 1, _ :: cs => by simp only [splitSubGo, List.drop_succ_cons]; exact splitSubGo_join sep hs k cs
  | 0, c :: cs => by
    simp only [splitSubGo, List.drop_zero]
    split
    · rename_i hp
      rw [join_cons_ne _ _ _ (splitSubGo_ne sep _ cs), splitSubGo_join sep hs]
      obtain ⟨r, hr⟩ := List.isPrefixOf_iff_prefix.1 hp
      cases sep with
      | nil => exact absurd rfl hs
      | cons d ds =>
        simp only [List.cons_append, List.cons.injEq] at hr
        obtain ⟨rfl, rfl⟩ := hr
        simp
    · have ih := splitSubGo_join sep hs 0 cs
      split
      · rename_i he; exact absurd he (splitSubGo_ne sep 0 cs)
      · rename_i h t he
        rw [he] at ih
        cases t with
        | nil => simp only [join] at ih ⊢; simpa using ih
        | cons b t => simp only [join, List.cons_append] at ih ⊢; simpa using ih

theorem splitSubGo_clean (sep : Str) (hs : sep ≠ []) : ∀ (k : Nat) (s : Str), ∀ i ∈ splitSubGo sep k s, ¬ Occurs sep i
  | k, [] => by
    intro i hi
    simp only [splitSubGo, List.mem_singleton] at hi
    subst hi
    rintro ⟨a, b, h⟩
    have := congrArg List.length h
    simp only [List.length_nil, List.length_append] at this
    exact hs (List.length_eq_zero_iff.1 (by omega))
  | k + 1, _ :: cs => by simp only [splitSubGo]; exact splitSubGo_clean sep hs k cs
  | 0, c :: cs => by
    intro i hi
    simp only [splitSubGo] at hi
    split at hi
    · rcases List.mem_cons.1 hi with rfl | hi
      · rintro ⟨a, b, h⟩
        have := congrArg List.length h
        simp only [List.length_nil, List.length_append] at this
        exact hs (List.length_eq_zero_iff.1 (by omega))
      · exact splitSubGo_clean sep hs _ cs i hi
    · rename_i hp
      have ih := splitSubGo_clean sep hs 0 cs
      have hj := splitSubGo_join sep hs 0 cs
      split at hi
      · rename_i he; exact absurd he (splitSubGo_ne sep 0 cs)
      · rename_i h t he
        rw [he] at ih hj
        rcases List.mem_cons.1 hi with rfl | hi
        · rintro ⟨a, b, hab⟩
          cases a with
          | nil =>
            have hpre : ∃ r, cs = h ++ r := by
              cases t with
              | nil => exact ⟨[], by simpa [join] using hj.symm⟩
              | cons b' t' => exact ⟨sep ++ join sep (b' :: t'), by simpa [join] using hj.symm⟩
            obtain ⟨r, hr⟩ := hpre
            apply hp
            rw [List.isPrefixOf_iff_prefix]
            refine ⟨b ++ r, ?_⟩
            rw [hr, ← List.cons_append, hab]
            simp
          | cons x a =>
            simp only [List.cons_append, List.cons.injEq] at hab
            exact ih h (by simp) ⟨a, b, hab.2⟩
        · exact ih i (by simp [hi])

theorem splitDelim_fields {d : Option Str} {s : Str} {items : List Str} (h : splitDelim d s = .ok items) :
    Fields d s items := by
  unfold splitDelim at h
  split at h
  · cases h; rfl
  · cases h
  · cases h
    exact ⟨by simpa using splitSubGo_join _ (by simp) 0 s, splitSubGo_clean _ (by simp) 0 s⟩

theorem oneItemOf_iff {a b : List Str} (h : oneItemOf a b = true) : ∃ x, a = [x] ∧ b = words x := by
  unfold oneItemOf at h
  split at h
  · exact ⟨_, rfl, (by simpa using h : words _ = b).symm⟩
  · cases h

theorem itemsDiffer_false {env : CmpEnv F} : ∀ {a b : List Str}, a.length = b.length →
    itemsDiffer env false a b = .ok false → List.Forall₂ (SameItem env.parse env.eq) a b
  | [], [], _, _ => .nil
  | s :: ss, t :: ts, hl, h => by
    simp only [itemsDiffer] at h
    obtain ⟨d, h1, h2⟩ := ok_of_bind h
    cases d with
    | true => simp at h2
    | false =>
      simp only [Bool.false_eq_true, if_false] at h2
      refine .cons ?_ (itemsDiffer_false (by simpa using hl) h2)
      unfold itemDiffers at h1
      split at h1
      · rename_i x y hx hy
        split at h1
        · rename_i he; exact .inr ⟨x, y, hx, hy, he⟩
        · simp at h1
      · split at h1
        · rename_i he; exact .inl he
        · simp at h1

theorem lineDiffers_false {env : CmpEnv F} {o : CmpOpts} {l1 l2 : Str} (ho : o.approx = false)
    (h : lineDiffers env o l1 l2 = .ok false) :
    LinesAgree (if o.clever then SameItem env.parse env.eq else Eq) o.d1 o.d2 l1 l2 := by
  unfold lineDiffers at h
  simp only at h
  split at h
  · rename_i hc
    simp only [Bool.and_eq_true, beq_iff_eq] at hc
    exact .inl hc.2
  · obtain ⟨i1, h1, h⟩ := ok_of_bind h
    obtain ⟨i2, h2, h⟩ := ok_of_bind h
    refine .inr ⟨i1, i2, splitDelim_fields h1, splitDelim_fields h2, ?_⟩
    split at h
    · simp only [Except.ok.injEq, Bool.not_eq_false', Bool.or_eq_true] at h
      rcases h with h | h
      · exact .inr (.inl (oneItemOf_iff h))
      · exact .inr (.inr (oneItemOf_iff h))
    · rename_i hl
      have hl : i1.length = i2.length := by simpa using hl
      split at h
      · rename_i hc
        have he : i1 = i2 := by simpa using h
        subst he
        refine .inl ?_
        rw [if_neg (by simpa using hc)]
        exact List.forall₂_same.2 fun _ _ => rfl
      · rename_i hc
        rw [ho] at h
        refine .inl ?_
        rw [if_pos (by simpa using hc)]
        exact itemsDiffer_false hl h

/-- No difference in the common part. -/
theorem sectionsGo_nil {env : CmpEnv F} {o : CmpOpts} (ho : o.approx = false) : ∀ {i : Nat} {a b : List Str},
    sectionsGo env o i a b = .ok [] →
    List.Forall₂ (LinesAgree (if o.clever then SameItem env.parse env.eq else Eq) o.d1 o.d2)
      (a.take b.length) (b.take a.length)
  | _, [], b, _ => by simp
  | _, a :: as, [], _ => by simp
  | i, a :: as, b :: bs, h => by
    simp only [sectionsGo] at h
    obtain ⟨d, h1, h⟩ := ok_of_bind h
    obtain ⟨r, h2, h⟩ := ok_of_bind h
    cases d with
    | true => simp at h
    | false =>
      simp only [Bool.false_eq_true, if_false, Except.ok.injEq] at h
      subst h
      simp only [List.length_cons, List.take_succ_cons]
      exact .cons (lineDiffers_false ho h1) (sectionsGo_nil ho h2)

theorem slice_parts {α : Type} (l : List α) (i : Int) : sliceTo l i ++ sliceFrom l i = l := by
  unfold sliceTo sliceFrom
  split <;> exact List.take_append_drop _ _

/-! ### A file and itself -/

theorem itemsDiffer_self {env : CmpEnv F} {approx : Bool} : ∀ {a : List Str},
    (∀ s ∈ a, ∀ x, env.parse s = some x → env.eq x x = true) → itemsDiffer env approx a a = .ok false
  | [], _ => rfl
  | s :: ss, h => by
    have h1 : itemDiffers env approx s s = .ok false := by
      unfold itemDiffers
      split
      · rename_i x y hx hy
        rw [hx] at hy; cases hy
        rw [if_pos (h s (by simp) x hx)]
      · simp
    simp only [itemsDiffer, h1, ok_bind, Bool.false_eq_true, if_false]
    exact itemsDiffer_self fun s hs => h s (by simp [hs])

theorem mem_joined {sep i : Str} {c : Char} : ∀ {l : List Str}, i ∈ l → c ∈ i → c ∈ join sep l
  | [a], hi, hc => by
    rw [List.mem_singleton] at hi; subst hi; exact hc
  | a :: b :: t, hi, hc => by
    simp only [join, List.mem_append]
    rcases List.mem_cons.1 hi with rfl | hi
    · exact .inl (.inl hc)
    · exact .inr (mem_joined hi hc)

theorem splitDelim_mem {d : Option Str} {s : Str} {items : List Str} (h : splitDelim d s = .ok items) :
    ∀ i ∈ items, ∀ c ∈ i, c ∈ s := by
  intro i hi c hc
  unfold splitDelim at h
  split at h
  · cases h; exact ((mem_words s i hi).2 c hc).2
  · cases h
  · cases h
    have := splitSubGo_join _ (List.cons_ne_nil _ _) 0 s ▸ mem_joined hi hc
    simpa using this

theorem splitDelim_ok {d : Option Str} (hd : d ≠ some []) (s : Str) : ∃ l, splitDelim d s = .ok l := by
  unfold splitDelim
  split
  · exact ⟨_, rfl⟩
  · exact absurd rfl hd
  · exact ⟨_, rfl⟩

/-- A line compared with itself. -/
theorem lineDiffers_self {env : CmpEnv F} {o : CmpOpts} (hd : o.d1 = o.d2) (hne : o.d1 ≠ some [])
    (heq : ∀ s x, (∀ c ∈ s, isLetter c = false) → env.parse s = some x → env.eq x x = true) (l : Str) :
    lineDiffers env o l l = .ok false := by
  unfold lineDiffers
  simp only [beq_self_eq_true, Bool.and_true]
  split
  · rfl
  · rename_i hl
    obtain ⟨is, his⟩ := splitDelim_ok hne (strip l)
    rw [← hd, his]
    simp only [ok_bind, bne_self_eq_false, Bool.false_eq_true, if_false]
    split
    · rfl
    · refine itemsDiffer_self fun s hs x hx => heq s x (fun c hc => ?_) hx
      have := splitDelim_mem his s hs c hc
      simp only [List.any_eq_true, not_exists, not_and, Bool.not_eq_true] at hl
      exact hl c this

theorem sectionsGo_self {env : CmpEnv F} {o : CmpOpts} (hd : o.d1 = o.d2) (hne : o.d1 ≠ some [])
    (heq : ∀ s x, (∀ c ∈ s, isLetter c = false) → env.parse s = some x → env.eq x x = true) :
    ∀ (i : Nat) (l : List Str), sectionsGo env o i l l = .ok []
  | _, [] => rfl
  | i, l :: t => by
    simp [sectionsGo, lineDiffers_self hd hne heq, sectionsGo_self hd hne heq (i + 1) t]

/-! ### The other way round -/

def LineDiff.swap (d : LineDiff) : LineDiff := { number := d.number, first := d.second, second := d.first }

def CmpOpts.swap (o : CmpOpts) : CmpOpts := { o with d1 := o.d2, d2 := o.d1 }

theorem itemDiffers_swap {env : CmpEnv F} {approx : Bool} (heq : ∀ a b, env.eq a b = env.eq b a)
    (hfar : approx = true → ∀ a b, env.tooFar a b = env.tooFar b a) (s t : Str) :
    itemDiffers env approx t s = itemDiffers env approx s t := by
  unfold itemDiffers
  cases hs : env.parse s <;> cases ht : env.parse t
  · simp only [eq_comm]
  · simp only [eq_comm]
  · simp only [eq_comm]
  · rename_i a b
    simp only [heq b a]
    cases approx with
    | false => rfl
    | true => simp only [hfar rfl b a]

theorem itemsDiffer_swap {env : CmpEnv F} {approx : Bool} (heq : ∀ a b, env.eq a b = env.eq b a)
    (hfar : approx = true → ∀ a b, env.tooFar a b = env.tooFar b a) :
    ∀ (a b : List Str), itemsDiffer env approx b a = itemsDiffer env approx a b
  | [], [] => rfl
  | [], _ :: _ => rfl
  | _ :: _, [] => rfl
  | s :: ss, t :: ts => by
    simp only [itemsDiffer, itemDiffers_swap heq hfar s t, itemsDiffer_swap heq hfar ss ts]

theorem splitDelim_error {d : Option Str} {s : Str} {e : Err} (h : splitDelim d s = .error e) : e = .value := by
  unfold splitDelim at h
  split at h
  · cases h
  · cases h; rfl
  · cases h

theorem lineDiffers_swap {env : CmpEnv F} {o : CmpOpts} (heq : ∀ a b, env.eq a b = env.eq b a)
    (hfar : o.approx = true → ∀ a b, env.tooFar a b = env.tooFar b a) (l1 l2 : Str) :
    lineDiffers env o.swap l2 l1 = lineDiffers env o l1 l2 := by
  unfold lineDiffers
  simp only [CmpOpts.swap]
  by_cases he : strip l1 = strip l2
  · rw [he]
    simp only [beq_self_eq_true, Bool.and_true]
    split
    · rfl
    · cases h1 : splitDelim o.d1 (strip l2) <;> cases h2 : splitDelim o.d2 (strip l2)
      · rw [splitDelim_error h1, splitDelim_error h2]; rfl
      · rfl
      · rfl
      · rename_i a b
        simp only [ok_bind]
        rw [show (b.length != a.length) = (a.length != b.length) from bne_comm, Bool.or_comm,
          show (b != a) = (a != b) from bne_comm, itemsDiffer_swap heq hfar]; rfl
  · have he' : ¬ strip l2 = strip l1 := fun h => he h.symm
    rw [if_neg (by simp [he']), if_neg (by simp [he])]
    cases h1 : splitDelim o.d1 (strip l1) <;> cases h2 : splitDelim o.d2 (strip l2)
    · rw [splitDelim_error h1, splitDelim_error h2]; rfl
    · rfl
    · rfl
    · rename_i a b
      simp only [ok_bind]
      rw [show (b.length != a.length) = (a.length != b.length) from bne_comm, Bool.or_comm,
        show (b != a) = (a != b) from bne_comm, itemsDiffer_swap heq hfar]; rfl

theorem sectionsGo_swap {env : CmpEnv F} {o : CmpOpts} (heq : ∀ a b, env.eq a b = env.eq b a)
    (hfar : o.approx = true → ∀ a b, env.tooFar a b = env.tooFar b a) :
    ∀ (i : Nat) (a b : List Str), sectionsGo env o.swap i b a = (sectionsGo env o i a b).map (List.map LineDiff.swap)
  | _, [], [] => rfl
  | _, [], _ :: _ => rfl
  | _, _ :: _, [] => rfl
  | i, a :: as, b :: bs => by
    simp only [sectionsGo, lineDiffers_swap heq hfar a b, sectionsGo_swap heq hfar (i + 1) as bs]
    cases lineDiffers env o a b with
    | error e => rfl
    | ok d =>
      cases sectionsGo env o (i + 1) as bs with
      | error e => rfl
      | ok r => cases d <;> rfl

/-! ### Exact arithmetic -/

section Field

variable [Field F] [LinearOrder F] [IsStrictOrderedRing F] {parse : Str → Option F} {tiny threshold : F}

omit [IsStrictOrderedRing F] in
theorem nudge_pos (ht : 0 < tiny) {a : F} (h : 0 ≤ a) : 0 < (fieldEnv parse tiny threshold).nudge a := by
  simp only [CmpEnv.nudge, fieldEnv, decide_eq_true_eq]
  split
  · exact ht
  · rename_i hne; exact lt_of_le_of_ne h (Ne.symm hne)

omit [IsStrictOrderedRing F] in
theorem nudge_neg {a : F} (h : a < 0) : (fieldEnv parse tiny threshold).nudge a = a := by
  simp only [CmpEnv.nudge, fieldEnv, decide_eq_true_eq, if_neg h.ne]

/-- Numbers of the same sign are never too far apart. -/
theorem tooFar_sameSign (ht : 0 < tiny) (hth : 0 ≤ threshold) {a b : F} (h : SameSign a b) :
    (fieldEnv parse tiny threshold).tooFar a b = false := by
  have hq : 0 < (fieldEnv parse tiny threshold).nudge a / (fieldEnv parse tiny threshold).nudge b := by
    rcases h with ⟨ha, hb⟩ | ⟨ha, hb⟩
    · exact div_pos (nudge_pos ht ha) (nudge_pos ht hb)
    · rw [nudge_neg ha, nudge_neg hb]; exact div_pos_of_neg_of_neg ha hb
  unfold CmpEnv.tooFar
  generalize hx : (fieldEnv parse tiny threshold).nudge a = x at hq ⊢
  generalize hy : (fieldEnv parse tiny threshold).nudge b = y at hq ⊢
  simp only [fieldEnv, decide_eq_true_eq, decide_eq_false_iff_not, not_lt]
  split
  · rename_i hlt
    have : 1 ≤ y / x := by
      rw [← inv_div]
      exact (one_le_inv₀ hq).2 hlt.le
    linarith
  · rename_i hlt
    linarith

/-- Numbers of opposite sign are too far apart. -/
theorem tooFar_opposite (ht : 0 < tiny) (hth : threshold < 1) {a b : F} (h : ¬ SameSign a b) :
    (fieldEnv parse tiny threshold).tooFar a b = true := by
  have hab : (0 ≤ a ∧ b < 0) ∨ (a < 0 ∧ 0 ≤ b) := by
    unfold SameSign at h
    rcases le_or_gt 0 a with ha | ha <;> rcases le_or_gt 0 b with hb | hb
    · exact absurd (.inl ⟨ha, hb⟩) h
    · exact .inl ⟨ha, hb⟩
    · exact .inr ⟨ha, hb⟩
    · exact absurd (.inr ⟨ha, hb⟩) h
  have hq : (fieldEnv parse tiny threshold).nudge a / (fieldEnv parse tiny threshold).nudge b < 0 ∧
      (fieldEnv parse tiny threshold).nudge b / (fieldEnv parse tiny threshold).nudge a < 0 := by
    rcases hab with ⟨ha, hb⟩ | ⟨ha, hb⟩
    · rw [nudge_neg hb]
      exact ⟨div_neg_of_pos_of_neg (nudge_pos ht ha) hb, div_neg_of_neg_of_pos hb (nudge_pos ht ha)⟩
    · rw [nudge_neg ha]
      exact ⟨div_neg_of_neg_of_pos ha (nudge_pos ht hb), div_neg_of_pos_of_neg (nudge_pos ht hb) ha⟩
  unfold CmpEnv.tooFar
  generalize hx : (fieldEnv parse tiny threshold).nudge a = x at hq ⊢
  generalize hy : (fieldEnv parse tiny threshold).nudge b = y at hq ⊢
  simp only [fieldEnv, decide_eq_true_eq]
  rw [if_pos (by linarith [hq.1])]
  linarith [hq.2]

/-- Numbers of the same sign, item by item. -/
theorem itemsDiffer_sameSign (ht : 0 < tiny) (hth : 0 ≤ threshold) : ∀ {s t : List Str} {x y : List F},
    List.Forall₂ (fun s x => parse s = some x) s x → List.Forall₂ (fun t y => parse t = some y) t y →
    List.Forall₂ SameSign x y → itemsDiffer (fieldEnv parse tiny threshold) true s t = .ok false
  | _, _, _, _, .nil, .nil, _ => rfl
  | s :: _, t :: _, _, _, .cons hs hss, .cons ht' hts, .cons hab hxy => by
    have h1 : itemDiffers (fieldEnv parse tiny threshold) true s t = .ok false := by
      unfold itemDiffers
      rw [show (fieldEnv parse tiny threshold).parse = parse from rfl, hs, ht']
      simp only [tooFar_sameSign (parse := parse) ht hth hab, if_true, ite_self]
    simp only [itemsDiffer, h1, ok_bind, Bool.false_eq_true, if_false]
    exact itemsDiffer_sameSign ht hth hss hts hxy
  | _, _, _, _, .nil, .cons _ _, h => by cases h
  | _, _, _, _, .cons _ _, .nil, h => by cases h

/-- Numbers of opposite sign at some place. -/
theorem itemsDiffer_opposite (ht : 0 < tiny) (hth : threshold < 1) : ∀ {s t : List Str} {x y : List F},
    List.Forall₂ (fun s x => parse s = some x) s x → List.Forall₂ (fun t y => parse t = some y) t y →
    (∃ (j : Nat) (a b : F), x[j]? = some a ∧ y[j]? = some b ∧ ¬ SameSign a b) →
    itemsDiffer (fieldEnv parse tiny threshold) true s t = .ok true
  | _, _, _, _, .nil, _, ⟨j, a, b, ha, _, _⟩ => by simp at ha
  | _, _, _, _, .cons _ _, .nil, ⟨j, a, b, _, hb, _⟩ => by simp at hb
  | s :: _, t :: _, x :: xs, y :: ys, .cons hs hss, .cons ht' hts, ⟨j, a, b, ha, hb, hab⟩ => by
    have h1 : ∃ d, itemDiffers (fieldEnv parse tiny threshold) true s t = .ok d ∧ (¬ SameSign x y → d = true) := by
      unfold itemDiffers
      rw [show (fieldEnv parse tiny threshold).parse = parse from rfl, hs, ht']
      simp only [if_true]
      split
      · rename_i he
        refine ⟨_, rfl, fun h => absurd ?_ h⟩
        have he : x = y := by simpa [fieldEnv] using he
        subst he
        rcases le_or_gt 0 x with hx | hx
        · exact .inl ⟨hx, hx⟩
        · exact .inr ⟨hx, hx⟩
      · exact ⟨_, rfl, fun h => tooFar_opposite ht hth h⟩
    obtain ⟨d, hd, hdt⟩ := h1
    simp only [itemsDiffer, hd, ok_bind]
    cases d with
    | true => rfl
    | false =>
      simp only [Bool.false_eq_true, if_false]
      cases j with
      | zero =>
        simp only [List.getElem?_cons_zero, Option.some.injEq] at ha hb
        subst ha hb
        exact absurd (hdt hab) (by simp)
      | succ j =>
        exact itemsDiffer_opposite ht hth hss hts ⟨j, a, b, by simpa using ha, by simpa using hb, hab⟩

end Field

/-- A line that differs is reported. -/
theorem sectionsGo_reports {env : CmpEnv F} {o : CmpOpts} : ∀ {i k : Nat} {l1 l2 : List Str} {a b : Str}
    {ds : List LineDiff}, sectionsGo env o k l1 l2 = .ok ds → l1[i]? = some a → l2[i]? = some b →
    lineDiffers env o a b = .ok true → { number := k + i + 1, first := strip a, second := strip b } ∈ ds
  | _, _, [], _, _, _, _, _, ha, _, _ => by simp at ha
  | _, _, _ :: _, [], _, _, _, _, _, hb, _ => by simp at hb
  | i, k, x :: xs, y :: ys, a, b, ds, h, ha, hb, hd => by
    simp only [sectionsGo] at h
    obtain ⟨d, h1, h⟩ := ok_of_bind h
    obtain ⟨r, h2, h⟩ := ok_of_bind h
    simp only [Except.ok.injEq] at h
    subst h
    cases i with
    | zero =>
      simp only [List.getElem?_cons_zero, Option.some.injEq] at ha hb
      subst ha hb
      rw [hd] at h1
      cases h1
      simp
    | succ i =>
      have := sectionsGo_reports (i := i) h2 (by simpa using ha) (by simpa using hb) hd
      rw [show k + 1 + i + 1 = k + (i + 1) + 1 by omega] at this
      split
      · exact List.mem_cons_of_mem _ this
      · exact this

/-! ### Directories -/

theorem excludedDir_iff (name : Str) : excludedDir name = true ↔ LeftOutDir name := by
  simp [excludedDir, LeftOutDir, hasSub_iff]

theorem excludedFile_iff (name : Str) : excludedFile name = true ↔ LeftOutFile name := by
  have h : (name.head? = some '.') ↔ ['.'] <+: name := by
    cases name with
    | nil => simp
    | cons c t => simp [List.cons_prefix_cons, eq_comm]
  simp [excludedFile, LeftOutFile, hasSub_iff, h, or_assoc]

theorem not_leftOutFile {name : Str} : ¬ LeftOutFile name ↔ excludedFile name = false := by
  rw [← excludedFile_iff, Bool.not_eq_true]

theorem not_leftOutDir {name : Str} : ¬ LeftOutDir name ↔ excludedDir name = false := by
  rw [← excludedDir_iff, Bool.not_eq_true]


theorem rawDiffs_iff : ∀ {k : Nat} {l1 l2 : List Str} {d : LineDiff}, d ∈ rawDiffs k l1 l2 ↔
    ∃ (i : Nat) (a b : Str), l1[i]? = some a ∧ l2[i]? = some b ∧ a ≠ b ∧ d = { number := k + i + 1, first := a, second := b }
  | _, [], _, _ => by simp [rawDiffs]
  | _, _ :: _, [], _ => by simp [rawDiffs]
  | k, x :: xs, y :: ys, d => by
    have ih := rawDiffs_iff (k := k + 1) (l1 := xs) (l2 := ys) (d := d)
    constructor
    · intro h
      simp only [rawDiffs] at h
      have hrest : d ∈ rawDiffs (k + 1) xs ys → ∃ (i : Nat) (a b : Str), (x :: xs)[i]? = some a ∧
          (y :: ys)[i]? = some b ∧ a ≠ b ∧ d = { number := k + i + 1, first := a, second := b } := by
        intro h
        obtain ⟨i, a, b, h1, h2, h3, h4⟩ := ih.1 h
        exact ⟨i + 1, a, b, by simpa using h1, by simpa using h2, h3, by rw [h4]; congr 1; omega⟩
      split at h
      · rename_i hne
        rcases List.mem_cons.1 h with h | h
        · exact ⟨0, x, y, rfl, rfl, by simpa using hne, h⟩
        · exact hrest h
      · exact hrest h
    · rintro ⟨i, a, b, h1, h2, h3, h4⟩
      simp only [rawDiffs]
      cases i with
      | zero =>
        simp only [List.getElem?_cons_zero, Option.some.injEq] at h1 h2
        subst h1 h2
        rw [if_pos (by simpa using h3), h4]
        simp
      | succ i =>
        have := ih.2 ⟨i, a, b, by simpa using h1, by simpa using h2, h3, by rw [h4]; congr 1; omega⟩
        split
        · exact List.mem_cons_of_mem _ this
        · exact this

/-- What the loop prints for one entry is among all that it prints. -/
theorem compEntries_mem {path : List Str} {n2 : FNode} : ∀ {es : List (Str × FNode)} {msgs : List DirMsg}
    {item : Str} {node node2 : FNode}, compEntries path n2 es = .ok msgs → (item, node) ∈ es →
    n2.entry? item = some node2 → ∃ here : List DirMsg, (match node with
        | .dir es1 => compDirs (path ++ [item]) item es1 node2
        | .file t1 => compFiles (path ++ [item]) item t1 (some node2)) = .ok here ∧ ∀ m ∈ here, m ∈ msgs
  | [], _, _, _, _, _, hm, _ => by simp at hm
  | (i, n) :: es, msgs, item, node, node2, h, hm, h2 => by
    rw [compEntries] at h
    rcases List.mem_cons.1 hm with he | hm
    · cases he
      rw [h2] at h
      obtain ⟨here, h1, h⟩ := ok_of_bind h
      obtain ⟨rest, h3, h⟩ := ok_of_bind h
      cases h
      exact ⟨here, h1, fun m hm => List.mem_append_left _ hm⟩
    · split at h
      · obtain ⟨rest, h3, h⟩ := ok_of_bind h
        cases h
        obtain ⟨here, h4, h5⟩ := compEntries_mem h3 hm h2
        exact ⟨here, h4, fun m hm => List.mem_cons_of_mem _ (h5 m hm)⟩
      · obtain ⟨here, h1, h⟩ := ok_of_bind h
        obtain ⟨rest, h3, h⟩ := ok_of_bind h
        cases h
        obtain ⟨here, h4, h5⟩ := compEntries_mem h3 hm h2
        exact ⟨here, h4, fun m hm => List.mem_append_right _ (h5 m hm)⟩

theorem entry_mem {es : List (Str × FNode)} {n : Str} {node : FNode} (h : (FNode.dir es).entry? n = some node) :
    (n, node) ∈ es := by
  simp only [FNode.entry?, Option.map_eq_some_iff] at h
  obtain ⟨⟨m, nd⟩, h1, h2⟩ := h
  have := List.mem_of_find?_eq_some h1
  have hp := List.find?_some h1
  simp only [beq_iff_eq] at hp
  subst hp h2
  exact this

theorem compDirs_reports : ∀ (p : List Str) {path : List Str} {name : Str} {es : List (Str × FNode)} {n2 : FNode}
    {msgs : List DirMsg} {t1 t2 : Str}, compDirs path name es n2 = .ok msgs → excludedDir name = false →
    (FNode.dir es).at? p = some (.file t1) → n2.at? p = some (.file t2) → OpenPath p →
    ∀ d ∈ rawDiffs 0 (fileLines t1) (fileLines t2), DirMsg.diff (path ++ p) d ∈ msgs
  | [], _, _, _, _, _, _, _, _, _, h1, _, _ => by simp [FNode.at?] at h1
  | n :: p, path, name, es, n2, msgs, t1, t2, h, hx, h1, h2, ho => by
    intro d hd
    rw [compDirs, if_neg (by simp [hx])] at h
    simp only [FNode.at?, Option.bind_eq_some_iff] at h1 h2
    obtain ⟨c1, hc1, h1⟩ := h1
    obtain ⟨c2, hc2, h2⟩ := h2
    obtain ⟨here, h3, h4⟩ := compEntries_mem h (entry_mem hc1) hc2
    apply h4
    cases c1 with
    | file t =>
      cases p with
      | cons m p => simp [FNode.at?, FNode.entry?] at h1
      | nil =>
        simp only [FNode.at?, Option.some.injEq, FNode.file.injEq] at h1 h2
        subst h1 h2
        simp only [OpenPath, not_leftOutFile, not_leftOutDir] at ho
        simp only [compFiles, ho, Bool.false_eq_true, if_false, Except.ok.injEq] at h3
        subst h3
        exact List.mem_map_of_mem hd
    | dir es1 =>
      cases p with
      | nil => simp [FNode.at?] at h1
      | cons m p =>
        simp only [OpenPath, not_leftOutFile, not_leftOutDir] at ho
        have := compDirs_reports (m :: p) h3 ho.1 h1 h2 ho.2 d hd
        simpa using this

theorem reaches_cons {e : Str × FNode} {es : List (Str × FNode)} {p : List Str} {t : Str}
    (h : Reaches (.dir es) p t) : Reaches (.dir (e :: es)) p t := by
  cases h with
  | entry hmem hr => exact .entry (List.mem_cons_of_mem _ hmem) hr

mutual
theorem compDirs_sound (path : List Str) (name : Str) (es : List (Str × FNode)) (n2 : FNode) (msgs : List DirMsg)
    (h : compDirs path name es n2 = .ok msgs) (q : List Str) (d : LineDiff) (hm : DirMsg.diff q d ∈ msgs) :
    ∃ p t1 t2, q = path ++ p ∧ Reaches (.dir es) p t1 ∧ n2.at? p = some (.file t2) ∧
      d ∈ rawDiffs 0 (fileLines t1) (fileLines t2) := by
  rw [compDirs] at h
  split at h
  · cases h; simp at hm
  · exact compEntries_sound path n2 es msgs h q d hm
termination_by (sizeOf es, 1)

theorem compEntries_sound (path : List Str) (n2 : FNode) (es : List (Str × FNode)) (msgs : List DirMsg)
    (h : compEntries path n2 es = .ok msgs) (q : List Str) (d : LineDiff) (hm : DirMsg.diff q d ∈ msgs) :
    ∃ p t1 t2, q = path ++ p ∧ Reaches (.dir es) p t1 ∧ n2.at? p = some (.file t2) ∧
      d ∈ rawDiffs 0 (fileLines t1) (fileLines t2) := by
  match es, h with
  | [], h => rw [compEntries] at h; cases h; simp at hm
  | (item, .dir es1) :: es, h =>
    rw [compEntries] at h
    split at h
    · obtain ⟨rest, h3, h⟩ := ok_of_bind h
      cases h
      rcases List.mem_cons.1 hm with he | hm
      · cases he
      · obtain ⟨p, t1, t2, e1, e2, e3⟩ := compEntries_sound path n2 es rest h3 q d hm
        exact ⟨p, t1, t2, e1, reaches_cons e2, e3⟩
    · rename_i node2 hn2
      obtain ⟨here, h1, h⟩ := ok_of_bind h
      obtain ⟨rest, h3, h⟩ := ok_of_bind h
      cases h
      rcases List.mem_append.1 hm with hm | hm
      · obtain ⟨p, t1, t2, e1, e2, e3, e4⟩ := compDirs_sound (path ++ [item]) item es1 node2 here h1 q d hm
        exact ⟨item :: p, t1, t2, by simpa using e1, .entry (by simp) e2, by simp [FNode.at?, hn2, e3], e4⟩
      · obtain ⟨p, t1, t2, e1, e2, e3⟩ := compEntries_sound path n2 es rest h3 q d hm
        exact ⟨p, t1, t2, e1, reaches_cons e2, e3⟩
  | (item, .file t) :: es, h =>
    rw [compEntries] at h
    split at h
    · obtain ⟨rest, h3, h⟩ := ok_of_bind h
      cases h
      rcases List.mem_cons.1 hm with he | hm
      · cases he
      · obtain ⟨p, t1, t2, e1, e2, e3⟩ := compEntries_sound path n2 es rest h3 q d hm
        exact ⟨p, t1, t2, e1, reaches_cons e2, e3⟩
    · rename_i node2 hn2
      obtain ⟨here, h1, h⟩ := ok_of_bind h
      obtain ⟨rest, h3, h⟩ := ok_of_bind h
      cases h
      rcases List.mem_append.1 hm with hm | hm
      · simp only [compFiles] at h1
        split at h1
        · cases h1; simp at hm
        · split at h1
          · rename_i t2 he
            cases he
            cases h1
            obtain ⟨d', hd', he⟩ := List.mem_map.1 hm
            cases he
            exact ⟨[item], t, t2, rfl, .entry (by simp) (.here t), by simp [FNode.at?, hn2], hd'⟩
          · cases h1
      · obtain ⟨p, t1, t2, e1, e2, e3⟩ := compEntries_sound path n2 es rest h3 q d hm
        exact ⟨p, t1, t2, e1, reaches_cons e2, e3⟩
termination_by (sizeOf es, 0)
end

theorem dirReport_cons {path : List Str} {name : Str} {e : Str × FNode} {es : List (Str × FNode)} {n2 : FNode}
    {m : DirMsg} (hx : ¬ LeftOutDir name) :
    DirReport path name (e :: es) n2 m ↔ DirReport path name [e] n2 m ∨ DirReport path name es n2 m := by
  constructor
  · intro hr
    cases hr with
    | leftOutDir hl => exact absurd hl hx
    | missing hn h1 h2 =>
      rcases List.mem_cons.1 h1 with e | h1
      · exact .inl (.missing hn (List.mem_singleton.2 e) h2)
      · exact .inr (.missing hn h1 h2)
    | inside hn h1 h2 h3 =>
      rcases List.mem_cons.1 h1 with e | h1
      · exact .inl (.inside hn (List.mem_singleton.2 e) h2 h3)
      · exact .inr (.inside hn h1 h2 h3)
    | leftOutFile hn h1 h2 h3 =>
      rcases List.mem_cons.1 h1 with e | h1
      · exact .inl (.leftOutFile hn (List.mem_singleton.2 e) h2 h3)
      · exact .inr (.leftOutFile hn h1 h2 h3)
    | line hn h1 h2 h3 h4 h5 h6 =>
      rcases List.mem_cons.1 h1 with e | h1
      · exact .inl (.line hn (List.mem_singleton.2 e) h2 h3 h4 h5 h6)
      · exact .inr (.line hn h1 h2 h3 h4 h5 h6)
  · have mono : ∀ {l : List (Str × FNode)}, (∀ x ∈ l, x ∈ e :: es) → DirReport path name l n2 m →
        DirReport path name (e :: es) n2 m := by
      intro l hl hr
      cases hr with
      | leftOutDir h => exact .leftOutDir h
      | missing hn h1 h2 => exact .missing hn (hl _ h1) h2
      | inside hn h1 h2 h3 => exact .inside hn (hl _ h1) h2 h3
      | leftOutFile hn h1 h2 h3 => exact .leftOutFile hn (hl _ h1) h2 h3
      | line hn h1 h2 h3 h4 h5 h6 => exact .line hn (hl _ h1) h2 h3 h4 h5 h6
    rintro (hr | hr)
    · exact mono (by simp) hr
    · exact mono (fun x hx => List.mem_cons_of_mem _ hx) hr

theorem missing_exact {path : List Str} {name item : Str} {node n2 : FNode} {m : DirMsg} (hx : ¬ LeftOutDir name)
    (hn2 : n2.entry? item = none) : m = .missing (path ++ [item]) ↔ DirReport path name [(item, node)] n2 m := by
  constructor
  · rintro rfl
    exact .missing hx (List.mem_singleton.2 rfl) hn2
  · intro hr
    cases hr with
    | leftOutDir hl => exact absurd hl hx
    | missing _ h1 _ => cases List.mem_singleton.1 h1; rfl
    | inside _ h1 h2 => cases List.mem_singleton.1 h1; rw [hn2] at h2; cases h2
    | leftOutFile _ h1 h2 => cases List.mem_singleton.1 h1; rw [hn2] at h2; cases h2
    | line _ h1 h2 => cases List.mem_singleton.1 h1; rw [hn2] at h2; cases h2

theorem inside_exact {path : List Str} {name item : Str} {es1 : List (Str × FNode)} {n2 node2 : FNode} {m : DirMsg}
    (hx : ¬ LeftOutDir name) (hn2 : n2.entry? item = some node2) :
    DirReport (path ++ [item]) item es1 node2 m ↔ DirReport path name [(item, .dir es1)] n2 m := by
  constructor
  · intro hr
    exact .inside hx (List.mem_singleton.2 rfl) hn2 hr
  · intro hr
    cases hr with
    | leftOutDir hl => exact absurd hl hx
    | missing _ k1 k2 => cases List.mem_singleton.1 k1; rw [hn2] at k2; cases k2
    | inside _ k1 k2 k3 => cases List.mem_singleton.1 k1; rw [hn2] at k2; cases k2; exact k3
    | leftOutFile _ k1 => cases List.mem_singleton.1 k1
    | line _ k1 => cases List.mem_singleton.1 k1

theorem compFiles_exact {path : List Str} {name item t : Str} {n2 node2 : FNode} {m : DirMsg} {here : List DirMsg}
    (hx : ¬ LeftOutDir name) (hn2 : n2.entry? item = some node2)
    (h1 : compFiles (path ++ [item]) item t (some node2) = .ok here) :
    m ∈ here ↔ DirReport path name [(item, .file t)] n2 m := by
  unfold compFiles at h1
  by_cases hf : excludedFile item = true
  · have hf' := (excludedFile_iff item).1 hf
    rw [if_pos hf] at h1
    injection h1 with h1
    subst h1
    constructor
    · intro hm
      rw [List.mem_singleton.1 hm]
      exact .leftOutFile hx (List.mem_singleton.2 rfl) hn2 hf'
    · intro hr
      cases hr with
      | leftOutDir hl => exact absurd hl hx
      | missing _ k1 k2 => cases List.mem_singleton.1 k1; rw [hn2] at k2; cases k2
      | inside _ k1 => cases List.mem_singleton.1 k1
      | leftOutFile _ k1 => cases List.mem_singleton.1 k1; simp
      | line _ k1 _ k3 => cases List.mem_singleton.1 k1; exact absurd hf' k3
  · have hf' : ¬ LeftOutFile item := fun hl => hf ((excludedFile_iff item).2 hl)
    rw [if_neg hf] at h1
    cases node2 with
    | dir _ => cases h1
    | file t2 =>
      injection h1 with h1
      subst h1
      rw [List.mem_map]
      constructor
      · rintro ⟨d, hd, rfl⟩
        obtain ⟨i, a, b, ha, hb, hne, rfl⟩ := rawDiffs_iff.1 hd
        have := DirReport.line (path := path) (es := [(item, .file t)]) hx (List.mem_singleton.2 rfl) hn2 hf' ha hb hne
        rwa [show i + 1 = 0 + i + 1 by omega] at this
      · intro hr
        cases hr with
        | leftOutDir hl => exact absurd hl hx
        | missing _ k1 k2 => cases List.mem_singleton.1 k1; rw [hn2] at k2; cases k2
        | inside _ k1 => cases List.mem_singleton.1 k1
        | leftOutFile _ k1 _ k3 => cases List.mem_singleton.1 k1; exact absurd k3 hf'
        | line _ k1 k2 _ ha hb hne =>
          cases List.mem_singleton.1 k1
          rw [hn2] at k2
          cases k2
          exact ⟨_, rawDiffs_iff.2 ⟨_, _, _, ha, hb, hne, rfl⟩, by simp⟩

mutual
theorem compDirs_exact (path : List Str) (name : Str) (es : List (Str × FNode)) (n2 : FNode) (msgs : List DirMsg)
    (h : compDirs path name es n2 = .ok msgs) (m : DirMsg) : m ∈ msgs ↔ DirReport path name es n2 m := by
  rw [compDirs] at h
  split at h
  · rename_i hx
    have hx' := (excludedDir_iff name).1 hx
    cases h
    constructor
    · intro hm
      rw [List.mem_singleton.1 hm]
      exact .leftOutDir hx'
    · intro hr
      cases hr with
      | leftOutDir => simp
      | missing hn => exact absurd hx' hn
      | inside hn => exact absurd hx' hn
      | leftOutFile hn => exact absurd hx' hn
      | line hn => exact absurd hx' hn
  · rename_i hx
    exact compEntries_exact path name n2 es msgs (fun hl => hx ((excludedDir_iff name).2 hl)) h m
termination_by (sizeOf es, 1)

theorem compEntries_exact (path : List Str) (name : Str) (n2 : FNode) (es : List (Str × FNode)) (msgs : List DirMsg)
    (hx : ¬ LeftOutDir name) (h : compEntries path n2 es = .ok msgs) (m : DirMsg) :
    m ∈ msgs ↔ DirReport path name es n2 m := by
  match es, h with
  | [], h =>
    rw [compEntries] at h
    cases h
    constructor
    · intro hm; cases hm
    · intro hr
      cases hr with
      | leftOutDir hl => exact absurd hl hx
      | missing _ h1 => cases h1
      | inside _ h1 => cases h1
      | leftOutFile _ h1 => cases h1
      | line _ h1 => cases h1
  | (item, .dir es1) :: es, h =>
    rw [dirReport_cons hx]
    rw [compEntries] at h
    split at h
    · rename_i hn2
      obtain ⟨rest, h3, h⟩ := ok_of_bind h
      cases h
      rw [List.mem_cons, compEntries_exact path name n2 es rest hx h3 m]
      exact or_congr (missing_exact hx hn2) Iff.rfl
    · rename_i node2 hn2
      obtain ⟨here, h1, h⟩ := ok_of_bind h
      obtain ⟨rest, h3, h⟩ := ok_of_bind h
      cases h
      rw [List.mem_append, compEntries_exact path name n2 es rest hx h3 m,
        compDirs_exact (path ++ [item]) item es1 node2 here h1 m]
      exact or_congr (inside_exact hx hn2) Iff.rfl
  | (item, .file t) :: es, h =>
    rw [dirReport_cons hx]
    rw [compEntries] at h
    split at h
    · rename_i hn2
      obtain ⟨rest, h3, h⟩ := ok_of_bind h
      cases h
      rw [List.mem_cons, compEntries_exact path name n2 es rest hx h3 m]
      exact or_congr (missing_exact hx hn2) Iff.rfl
    · rename_i node2 hn2
      obtain ⟨here, h1, h⟩ := ok_of_bind h
      obtain ⟨rest, h3, h⟩ := ok_of_bind h
      cases h
      rw [List.mem_append, compEntries_exact path name n2 es rest hx h3 m]
      exact or_congr (compFiles_exact hx hn2 h1) Iff.rfl
termination_by (sizeOf es, 0)
end

theorem meets_cons {name : Str} {e : Str × FNode} {es : List (Str × FNode)} {n2 : FNode} :
    FileMeetsDir name (e :: es) n2 ↔ FileMeetsDir name [e] n2 ∨ FileMeetsDir name es n2 := by
  constructor
  · intro hr
    cases hr with
    | here hn h1 h2 h3 =>
      rcases List.mem_cons.1 h1 with e | h1
      · exact .inl (.here hn (List.mem_singleton.2 e) h2 h3)
      · exact .inr (.here hn h1 h2 h3)
    | inside hn h1 h2 h3 =>
      rcases List.mem_cons.1 h1 with e | h1
      · exact .inl (.inside hn (List.mem_singleton.2 e) h2 h3)
      · exact .inr (.inside hn h1 h2 h3)
  · rintro (hr | hr)
    · cases hr with
      | here hn h1 h2 h3 => exact .here hn (List.mem_cons.2 (.inl (List.mem_singleton.1 h1))) h2 h3
      | inside hn h1 h2 h3 => exact .inside hn (List.mem_cons.2 (.inl (List.mem_singleton.1 h1))) h2 h3
    · cases hr with
      | here hn h1 h2 h3 => exact .here hn (List.mem_cons_of_mem _ h1) h2 h3
      | inside hn h1 h2 h3 => exact .inside hn (List.mem_cons_of_mem _ h1) h2 h3

/-- The comparison stops exactly in the cases of `P`. -/
def StopsIf (P : Prop) (r : Res (List DirMsg)) : Prop := (P ∧ r = .error .exit) ∨ (¬ P ∧ ∃ msgs, r = .ok msgs)

theorem meets_none {name item : Str} {node n2 : FNode} (hn2 : n2.entry? item = none) :
    ¬ FileMeetsDir name [(item, node)] n2 := by
  intro hr
  cases hr with
  | here _ h1 h2 => cases List.mem_singleton.1 h1; rw [hn2] at h2; cases h2
  | inside _ h1 h2 => cases List.mem_singleton.1 h1; rw [hn2] at h2; cases h2

theorem meets_inside {name item : Str} {es1 : List (Str × FNode)} {n2 node2 : FNode} (hx : ¬ LeftOutDir name)
    (hn2 : n2.entry? item = some node2) :
    FileMeetsDir name [(item, .dir es1)] n2 ↔ FileMeetsDir item es1 node2 := by
  constructor
  · intro hr
    cases hr with
    | here _ h1 => cases List.mem_singleton.1 h1
    | inside _ h1 h2 h3 => cases List.mem_singleton.1 h1; rw [hn2] at h2; cases h2; exact h3
  · intro hr
    exact .inside hx (List.mem_singleton.2 rfl) hn2 hr

theorem meets_file {name item t : Str} {n2 node2 : FNode} {path : List Str} (hx : ¬ LeftOutDir name)
    (hn2 : n2.entry? item = some node2) :
    StopsIf (FileMeetsDir name [(item, .file t)] n2) (compFiles path item t (some node2)) := by
  unfold compFiles
  by_cases hf : excludedFile item = true
  · rw [if_pos hf]
    refine .inr ⟨?_, _, rfl⟩
    intro hr
    cases hr with
    | here _ h1 _ h3 => cases List.mem_singleton.1 h1; exact h3 ((excludedFile_iff item).1 hf)
    | inside _ h1 => cases List.mem_singleton.1 h1
  · rw [if_neg hf]
    cases node2 with
    | file t2 =>
      refine .inr ⟨?_, _, rfl⟩
      intro hr
      cases hr with
      | here _ h1 h2 => cases List.mem_singleton.1 h1; rw [hn2] at h2; cases h2
      | inside _ h1 => cases List.mem_singleton.1 h1
    | dir es2 =>
      exact .inl ⟨.here hx (List.mem_singleton.2 rfl) hn2 (fun hl => hf ((excludedFile_iff item).2 hl)), rfl⟩

theorem stops_append {P Q : Prop} {r1 r2 : Res (List DirMsg)} (h1 : StopsIf P r1) (h2 : StopsIf Q r2) :
    StopsIf (P ∨ Q) (do let here ← r1; let rest ← r2; .ok (here ++ rest)) := by
  rcases h1 with ⟨hp, rfl⟩ | ⟨hp, m, rfl⟩
  · exact .inl ⟨.inl hp, rfl⟩
  · rcases h2 with ⟨hq, rfl⟩ | ⟨hq, m', rfl⟩
    · exact .inl ⟨.inr hq, rfl⟩
    · exact .inr ⟨fun h => h.elim hp hq, _, rfl⟩

theorem stops_cons {P Q : Prop} {x : DirMsg} {r2 : Res (List DirMsg)} (h1 : ¬ P) (h2 : StopsIf Q r2) :
    StopsIf (P ∨ Q) (do let rest ← r2; .ok (x :: rest)) := by
  rcases h2 with ⟨hq, rfl⟩ | ⟨hq, m', rfl⟩
  · exact .inl ⟨.inr hq, rfl⟩
  · exact .inr ⟨fun h => h.elim h1 hq, _, rfl⟩

mutual
theorem compDirs_stops (path : List Str) (name : Str) (es : List (Str × FNode)) (n2 : FNode) :
    StopsIf (FileMeetsDir name es n2) (compDirs path name es n2) := by
  rw [compDirs]
  by_cases hx : excludedDir name = true
  · rw [if_pos hx]
    have hx' := (excludedDir_iff name).1 hx
    refine .inr ⟨?_, _, rfl⟩
    intro hr
    cases hr with
    | here hn => exact hn hx'
    | inside hn => exact hn hx'
  · rw [if_neg hx]
    exact compEntries_stops path name n2 es (fun hl => hx ((excludedDir_iff name).2 hl))
termination_by (sizeOf es, 1)

theorem compEntries_stops (path : List Str) (name : Str) (n2 : FNode) (es : List (Str × FNode))
    (hx : ¬ LeftOutDir name) : StopsIf (FileMeetsDir name es n2) (compEntries path n2 es) := by
  match es with
  | [] =>
    rw [compEntries]
    refine .inr ⟨?_, _, rfl⟩
    intro hr
    cases hr with
    | here _ h1 => cases h1
    | inside _ h1 => cases h1
  | (item, .dir es1) :: es =>
    rw [compEntries, meets_cons]
    split
    · rename_i hn2
      exact stops_cons (meets_none hn2) (compEntries_stops path name n2 es hx)
    · rename_i node2 hn2
      rw [meets_inside hx hn2]
      exact stops_append (compDirs_stops (path ++ [item]) item es1 node2) (compEntries_stops path name n2 es hx)
  | (item, .file t) :: es =>
    rw [compEntries, meets_cons]
    split
    · rename_i hn2
      exact stops_cons (meets_none hn2) (compEntries_stops path name n2 es hx)
    · rename_i node2 hn2
      exact stops_append (meets_file hx hn2) (compEntries_stops path name n2 es hx)
termination_by (sizeOf es, 0)
end

end Nappy
