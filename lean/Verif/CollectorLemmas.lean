import Verif.Spec.Collector
import Verif.ReadLemmas
import Mathlib.Data.List.Perm.Basic

/-! Lemmas on the conversion of variables. -/

namespace Nappy

open Spec

variable {F : Type}

/-! ### Axes -/

theorem axesCompatible_iff (checkId : Bool) (a b : XAxis F) :
    axesCompatible checkId a b = true ↔
      (∀ t ∈ cfTypes, ∀ x y, dictGet? a.cf t = some x → dictGet? b.cf t = some y → x = y) ∧
      (checkId = true → a.name = b.name) ∧ a.units = b.units := by
  have hcf : (cfTypes.any (cfDiffers a b) = true) ↔
      ¬ (∀ t ∈ cfTypes, ∀ x y, dictGet? a.cf t = some x → dictGet? b.cf t = some y → x = y) := by
    rw [List.any_eq_true]
    constructor
    · rintro ⟨t, ht, h⟩ hall
      unfold cfDiffers at h
      split at h
      · rename_i x y hx hy
        have := hall t ht x y hx hy
        simp [this] at h
      · cases h
    · intro h
      by_contra hc
      apply h
      intro t ht x y hx hy
      by_contra hne
      exact hc ⟨t, ht, by simp [cfDiffers, hx, hy, hne]⟩
  unfold axesCompatible
  by_cases h1 : cfTypes.any (cfDiffers a b) = true
  · rw [if_pos h1]
    constructor
    · intro h; cases h
    · rintro ⟨h, _⟩; exact absurd h (hcf.1 h1)
  · rw [if_neg h1]
    have h1' := (not_congr hcf).1 h1
    rw [not_not] at h1'
    rw [and_iff_right h1']
    cases checkId <;> simp

theorem allDiffer_iff (eq : F → F → Bool) (xs ys : List F) :
    allDiffer eq xs ys = true ↔
      ∀ (i : Nat) x y, xs[i]? = some x → ys[i]? = some y → eq x y = false := by
  induction xs generalizing ys with
  | nil => simp [allDiffer]
  | cons x xs ih =>
    cases ys with
    | nil => simp [allDiffer]
    | cons y ys =>
      simp only [allDiffer, Bool.and_eq_true, Bool.not_eq_true']
      rw [ih]
      constructor
      · rintro ⟨h1, h2⟩ i
        cases i with
        | zero => simp only [List.getElem?_cons_zero]; rintro _ _ ⟨⟩ ⟨⟩; exact h1
        | succ i => simpa using h2 i
      · intro h
        exact ⟨h 0 x y rfl rfl, fun i x' y' hx hy => h (i + 1) x' y' (by simpa using hx) (by simpa using hy)⟩

theorem areAxesIdentical_iff (eq : F → F → Bool) (a b : XAxis F) :
    areAxesIdentical eq a b = true ↔
      SameIdentity a b ∧ a.values.length = b.values.length ∧
        ∃ (i : Nat) (x y : F), a.values[i]? = some x ∧ b.values[i]? = some y ∧ eq x y = true := by
  unfold areAxesIdentical
  have hc := axesCompatible_iff true a b
  have hd := allDiffer_iff eq a.values b.values
  by_cases h1 : axesCompatible true a b = true
  · obtain ⟨c1, c2, c3⟩ := hc.1 h1
    have hid : SameIdentity a b := ⟨c2 rfl, c3, c1⟩
    simp only [h1, Bool.not_true, Bool.false_eq_true, if_false]
    by_cases h2 : a.values.length = b.values.length
    · by_cases h3 : allDiffer eq a.values b.values = true
      · have := hd.1 h3
        simp only [h2, h3, bne_self_eq_false, Bool.or_true, if_true, Bool.false_eq_true, false_iff,
          not_and, not_exists]
        intro _ _ i x y hx hy
        rw [this i x y hx hy]
        decide
      · have hn := (not_congr hd).1 h3
        simp only [h2, h3, bne_self_eq_false, Bool.or_false, Bool.false_eq_true, if_false, true_iff]
        refine ⟨hid, trivial, ?_⟩
        by_contra hcon
        apply hn
        intro i x y hx hy
        cases he : eq x y
        · rfl
        · exact absurd ⟨i, x, y, hx, hy, he⟩ hcon
    · simp [h2]
  · have h1' : axesCompatible true a b = false := by simpa using h1
    simp only [h1', Bool.not_false, if_true, Bool.false_eq_true, false_iff]
    rintro ⟨⟨e1, e2, e3⟩, _⟩
    exact h1 (hc.2 ⟨e3, fun _ => e1, e2⟩)

theorem subsetGo_ok (eq : F → F → Bool) (n : Nat) (ys : List F) (i : Nat) (xs : List F)
    (hlen : ∀ (j : Nat), j < xs.length → n * (i + j) < ys.length) :
    ∃ b, subsetGo eq n ys i xs = .ok b ∧
      (b = true ↔ ∀ (j : Nat) x, xs[j]? = some x → ∃ y, ys[n * (i + j)]? = some y ∧ eq y x = true) := by
  induction xs generalizing i with
  | nil => exact ⟨true, rfl, by simp⟩
  | cons x xs ih =>
    have h0 : n * i < ys.length := hlen 0 (by simp)
    have hy : ys[n * i]? = some ys[n * i] := by simp
    simp only [subsetGo, idx, hy, ok_bind]
    by_cases he : eq ys[n * i] x = true
    · rw [if_pos he]
      obtain ⟨b, hb, hiff⟩ := ih (i + 1) (by
        intro j hj
        have := hlen (j + 1) (by simpa using hj)
        rw [show i + 1 + j = i + (j + 1) from by omega]; exact this)
      refine ⟨b, hb, hiff.trans ?_⟩
      constructor
      · intro h j x' hx'
        cases j with
        | zero => simp at hx'; subst hx'; exact ⟨_, hy, he⟩
        | succ j =>
          have := h j x' (by simpa using hx')
          rwa [show i + 1 + j = i + (j + 1) from by omega] at this
      · intro h j x' hx'
        have := h (j + 1) x' (by simpa using hx')
        rwa [show i + 1 + j = i + (j + 1) from by omega]
    · rw [if_neg he]
      refine ⟨false, rfl, ?_⟩
      simp only [Bool.false_eq_true, false_iff, not_forall]
      refine ⟨0, x, by simp, ?_⟩
      rintro ⟨y, hy', he'⟩
      rw [Nat.add_zero, hy] at hy'
      injection hy' with hy'
      subst hy'
      exact he he'

theorem subsetFactor_ok (eq : F → F → Bool) (a b : XAxis F) (hne : a.values ≠ []) (hb : b.values ≠ []) :
    ∃ r, subsetFactor eq a b = .ok r ∧
      ∀ n, r = some n ↔ axesCompatible false a b = true ∧ EveryNth eq n a.values b.values := by
  have hpos : 0 < a.values.length := List.length_pos_iff.2 hne
  have hposb : 0 < b.values.length := List.length_pos_iff.2 hb
  unfold subsetFactor
  by_cases h1 : axesCompatible false a b = true
  · simp only [h1, Bool.not_true, Bool.false_eq_true, if_false, true_and]
    rw [if_neg (by omega)]
    by_cases h2 : b.values.length % a.values.length = 0
    · simp only [h2, bne_self_eq_false, Bool.false_eq_true, if_false]
      have hdiv : b.values.length = b.values.length / a.values.length * a.values.length :=
        (Nat.div_mul_cancel (Nat.dvd_of_mod_eq_zero h2)).symm
      obtain ⟨r, hr, hiff⟩ := subsetGo_ok eq (b.values.length / a.values.length) b.values 0 a.values (by
        intro j hj
        rw [Nat.zero_add]
        calc b.values.length / a.values.length * j
            < b.values.length / a.values.length * a.values.length := by
              refine Nat.mul_lt_mul_of_pos_left hj ?_
              rcases Nat.eq_zero_or_pos (b.values.length / a.values.length) with h | h
              · rw [h, Nat.zero_mul] at hdiv; omega
              · exact h
          _ = b.values.length := hdiv.symm)
      rw [hr]
      refine ⟨_, rfl, fun n => ?_⟩
      simp only [Nat.zero_add] at hiff
      cases r with
      | true =>
        simp only [if_true, Option.some.injEq]
        constructor
        · rintro rfl
          exact ⟨hdiv, hiff.1 rfl⟩
        · rintro ⟨hl, _⟩
          rw [hl]; exact Nat.mul_div_cancel _ hpos
      | false =>
        simp only [Bool.false_eq_true, if_false, false_iff]
        constructor
        · intro h; cases h
        · rintro ⟨hl, hall⟩
          have : n = b.values.length / a.values.length := by
            rw [hl]; exact (Nat.mul_div_cancel _ hpos).symm
          subst this
          exact absurd (hiff.2 hall) (by decide)
    · refine ⟨none, by simp [h2], fun n => ?_⟩
      constructor
      · intro h; cases h
      · rintro ⟨hl, _⟩
        exact absurd (by rw [hl]; exact Nat.mul_mod_left _ _) h2
  · refine ⟨none, by simp [h1], fun n => ?_⟩
    constructor
    · intro h; cases h
    · rintro ⟨h, _⟩; exact absurd h h1

/-! ### The best variable -/

/-- `b` is at least as good as `v`: more axes, or as many and at least as many values. -/
def Beats (b v : XVar F) : Prop := v.rank < b.rank ∨ (v.rank = b.rank ∧ v.size ≤ b.size)

theorem Beats.trans {a b c : XVar F} (h1 : Beats a b) (h2 : Beats b c) : Beats a c := by
  unfold Beats at *; omega

theorem bestGo_spec (best : Best F) (pre vs : List (XVar F))
    (hb : match best with
      | none => ∀ v ∈ pre, v.rank = 0
      | some (i, b) => pre[i]? = some b ∧ b.rank ≠ 0 ∧ ∀ v ∈ pre, v.rank ≠ 0 → Beats b v) :
    match bestGo best pre.length vs with
      | none => ∀ v ∈ pre ++ vs, v.rank = 0
      | some (i, b) => (pre ++ vs)[i]? = some b ∧ b.rank ≠ 0 ∧ ∀ v ∈ pre ++ vs, v.rank ≠ 0 → Beats b v := by
  induction vs generalizing best pre with
  | nil => simpa [bestGo] using hb
  | cons v vs ih =>
    have key : match bestStep best pre.length v with
        | none => ∀ u ∈ pre ++ [v], u.rank = 0
        | some (i, b) => (pre ++ [v])[i]? = some b ∧ b.rank ≠ 0 ∧
            ∀ u ∈ pre ++ [v], u.rank ≠ 0 → Beats b u := by
      unfold bestStep
      by_cases h0 : v.rank = 0
      · rw [if_pos h0]
        cases best with
        | none =>
          intro u hu
          rcases List.mem_append.1 hu with hu | hu
          · exact hb u hu
          · rw [List.mem_singleton.1 hu]; exact h0
        | some p =>
          obtain ⟨i, b⟩ := p
          obtain ⟨h1, h2, h3⟩ := hb
          refine ⟨?_, h2, ?_⟩
          · rw [List.getElem?_append_left]
            · exact h1
            · exact (List.getElem?_eq_some_iff.1 h1).1
          · intro u hu hr
            rcases List.mem_append.1 hu with hu | hu
            · exact h3 u hu hr
            · rw [List.mem_singleton.1 hu] at hr; exact absurd h0 hr
      · rw [if_neg h0]
        cases best with
        | none =>
          refine ⟨by simp, h0, ?_⟩
          intro u hu hr
          rcases List.mem_append.1 hu with hu | hu
          · exact absurd (hb u hu) hr
          · rw [List.mem_singleton.1 hu]; right; exact ⟨rfl, Nat.le_refl _⟩
        | some p =>
          obtain ⟨i, b⟩ := p
          obtain ⟨h1, h2, h3⟩ := hb
          dsimp only
          by_cases hc : (decide (v.rank > b.rank) || (v.rank == b.rank && decide (v.size > b.size))) = true
          · rw [if_pos hc]
            have hv : Beats v b := by
              simp only [Bool.or_eq_true, decide_eq_true_eq, Bool.and_eq_true, beq_iff_eq] at hc
              unfold Beats; omega
            refine ⟨by simp, h0, ?_⟩
            intro u hu hr
            rcases List.mem_append.1 hu with hu | hu
            · exact hv.trans (h3 u hu hr)
            · rw [List.mem_singleton.1 hu]; right; exact ⟨rfl, Nat.le_refl _⟩
          · rw [if_neg hc]
            refine ⟨?_, h2, ?_⟩
            · rw [List.getElem?_append_left]
              · exact h1
              · exact (List.getElem?_eq_some_iff.1 h1).1
            · intro u hu hr
              rcases List.mem_append.1 hu with hu | hu
              · exact h3 u hu hr
              · rw [List.mem_singleton.1 hu]
                simp only [Bool.or_eq_true, decide_eq_true_eq, Bool.and_eq_true, beq_iff_eq] at hc
                unfold Beats; omega
    have := ih (bestStep best pre.length v) (pre ++ [v]) key
    rw [List.length_append, List.length_singleton] at this
    rw [bestGo]
    simpa [List.append_assoc] using this

theorem best_none {vars : List (XVar F)} (h : bestGo none 0 vars = none) : ∀ v ∈ vars, v.rank = 0 := by
  have := bestGo_spec none [] vars (by simp)
  simp only [List.length_nil, h, List.nil_append] at this
  exact this

theorem best_some {vars : List (XVar F)} {i : Nat} {b : XVar F} (h : bestGo none 0 vars = some (i, b)) :
    vars[i]? = some b ∧ b.rank ≠ 0 ∧ ∀ v ∈ vars, v.rank ≠ 0 → Beats b v := by
  have := bestGo_spec none [] vars (by simp)
  simp only [List.length_nil, h, List.nil_append] at this
  exact this

theorem perm_eraseIdx {α : Type} {l : List α} {i : Nat} {a : α} (h : l[i]? = some a) :
    l.Perm (a :: l.eraseIdx i) := by
  induction l generalizing i with
  | nil => simp at h
  | cons x xs ih =>
    cases i with
    | zero => simp at h; subst h; simp
    | succ i =>
      simp only [List.getElem?_cons_succ] at h
      simp only [List.eraseIdx_cons_succ]
      exact ((ih h).cons x).trans (List.Perm.swap a x _)

/-! ### The second loop -/

/-- Why a variable is in no list after the second loop. -/
def Left (env : XEnv F) (b : XVar F) (zeroIds : List Str) (v : XVar F) : Prop :=
  v.name ∈ zeroIds ∨
    ∃ a ax0 more n, v.axes = [a] ∧ b.axes = ax0 :: more ∧ areAxesIdentical env.eq ax0 a = false ∧
      subsetFactor env.eq a ax0 = .ok (some (n + 1))

theorem perm_mid {α : Type} (a b c d : List α) (v : α) :
    (a ++ b ++ c ++ v :: d).Perm (a ++ b ++ (c ++ [v]) ++ d) := by simp

theorem sortStep_perm {env : XEnv F} {b : XVar F} {zeroIds : List Str} {s s' : SortState F} {v : XVar F}
    (hbr : b.rank ≠ 0) (h : sortStep env b zeroIds s v = .ok s') :
    ((s.main ++ s.aux ++ s.unused ++ [v]).Perm (s'.main ++ s'.aux ++ s'.unused)) ∨
      (s'.main = s.main ∧ s'.aux = s.aux ∧ s'.unused = s.unused ∧ Left env b zeroIds v) := by
  unfold sortStep at h
  split at h
  · rename_i hz
    injection h with h
    subst h
    exact .inr ⟨rfl, rfl, rfl, .inl hz⟩
  · split at h
    · split at h
      · rename_i first haxes
        obtain ⟨ax0, hax, h2⟩ := ok_of_bind h
        unfold sortOneDim at h2
        split at h2
        · split at h2 <;> (injection h2 with h2; subst h2; left)
          · simp
          · simp only [List.append_assoc]
            refine List.Perm.append_left _ (List.Perm.append_left _ ?_)
            exact List.perm_append_comm
        · rename_i hni
          split at h2
          · cases h2
          · injection h2 with h2; subst h2; left; simp
          · injection h2 with h2; subst h2; left; simp
          · rename_i n hn0 hsub
            injection h2 with h2
            subst h2
            refine .inr ⟨rfl, rfl, rfl, .inr ?_⟩
            unfold coordByIndex idx at hax
            cases hb : b.axes with
            | nil => exact absurd (by simp [XVar.rank, hb]) hbr
            | cons c more =>
              rw [hb] at hax
              simp only [List.getElem?_cons_zero] at hax
              injection hax with hax
              subst hax
              obtain ⟨m, rfl⟩ : ∃ m, n = m + 1 := by
                cases n with
                | zero => exact absurd rfl hn0
                | succ m => exact ⟨m, rfl⟩
              exact ⟨first, c, more, m, haxes, rfl, by simpa using hni, hsub⟩
      · injection h with h; subst h; left; simp
    · split at h
      · injection h with h; subst h; left
        simp only [List.append_assoc]
        refine List.Perm.append_left _ ?_
        rw [← List.append_assoc]
        exact List.perm_append_comm
      · injection h with h; subst h; left; simp

theorem sortGo_perm {env : XEnv F} {b : XVar F} {zeroIds : List Str} {s s' : SortState F}
    {vs : List (XVar F)} (hbr : b.rank ≠ 0) (h : sortGo env b zeroIds s vs = .ok s') :
    ∃ lost, lost.Sublist vs ∧ (∀ v ∈ lost, Left env b zeroIds v) ∧
      (s.main ++ s.aux ++ s.unused ++ vs).Perm (s'.main ++ s'.aux ++ s'.unused ++ lost) := by
  induction vs generalizing s with
  | nil =>
    injection h with h; subst h
    exact ⟨[], List.Sublist.slnil, by simp, List.Perm.refl _⟩
  | cons v vs ih =>
    obtain ⟨s1, h1, h2⟩ := ok_of_bind h
    obtain ⟨lost, l1, l2, l3⟩ := ih h2
    rcases sortStep_perm hbr h1 with hp | ⟨e1, e2, e3, hl⟩
    · refine ⟨lost, l1.cons v, l2, ?_⟩
      refine List.Perm.trans ?_ l3
      have : s.main ++ s.aux ++ s.unused ++ v :: vs = (s.main ++ s.aux ++ s.unused ++ [v]) ++ vs := by simp
      rw [this]
      exact hp.append_right _
    · refine ⟨v :: lost, l1.cons_cons v, ?_, ?_⟩
      · intro u hu
        rcases List.mem_cons.1 hu with rfl | hu
        · exact hl
        · exact l2 u hu
      · rw [e1, e2, e3] at l3
        exact List.perm_middle.trans ((l3.cons v).trans List.perm_middle.symm)

/-- Variables of unused have axes, and the names in `zeroIds` are skipped. -/
theorem sortGo_unused {env : XEnv F} {b : XVar F} {zeroIds : List Str} {s s' : SortState F}
    {vs : List (XVar F)} (h : sortGo env b zeroIds s vs = .ok s') (P : XVar F → Prop)
    (hs : ∀ v ∈ s.main ++ s.aux ++ s.unused, P v) (hv : ∀ v ∈ vs, v.name ∉ zeroIds → P v) :
    ∀ v ∈ s'.main ++ s'.aux ++ s'.unused, P v := by
  induction vs generalizing s with
  | nil => injection h with h; subst h; exact hs
  | cons v vs ih =>
    obtain ⟨s1, h1, h2⟩ := ok_of_bind h
    refine ih h2 ?_ (fun u hu => hv u (List.mem_cons_of_mem _ hu))
    unfold sortStep at h1
    split at h1
    · injection h1 with h1; subst h1; exact hs
    · rename_i hz
      have hPv := hv v (by simp) hz
      have add : ∀ (t : SortState F),
          (∀ u ∈ t.main ++ t.aux ++ t.unused, u ∈ s.main ++ s.aux ++ s.unused ∨ u = v) →
          ∀ u ∈ t.main ++ t.aux ++ t.unused, P u := by
        intro t ht u hu
        rcases ht u hu with h | rfl
        · exact hs u h
        · exact hPv
      split at h1
      · split at h1
        · obtain ⟨ax0, _, h3⟩ := ok_of_bind h1
          unfold sortOneDim at h3
          split at h3
          · split at h3 <;> (injection h3 with h3; subst h3; refine add _ ?_; intro u hu; simp at hu ⊢; tauto)
          · split at h3
            · cases h3
            all_goals (injection h3 with h3; subst h3; refine add _ ?_; intro u hu; simp at hu ⊢; tauto)
        · injection h1 with h1; subst h1; refine add _ ?_; intro u hu; simp at hu ⊢; tauto
      · split at h1 <;> (injection h1 with h1; subst h1; refine add _ ?_; intro u hu; simp at hu ⊢; tauto)

/-! ### Reordering -/

theorem filterMap_set_none {α : Type} (l : List (Option α)) (i : Nat) (a : α) (h : l[i]? = some none) :
    ((l.set i (some a)).filterMap id).Perm (a :: l.filterMap id) := by
  induction l generalizing i with
  | nil => simp at h
  | cons x xs ih =>
    cases i with
    | zero => simp at h; subst h; simp
    | succ i =>
      simp only [List.getElem?_cons_succ] at h
      simp only [List.set_cons_succ]
      cases x with
      | none => simpa using ih i h
      | some y =>
        simp only [List.filterMap_cons, id]
        exact ((ih i h).cons y).trans (List.Perm.swap a y _)

theorem slotGo_spec {α : Type} (num : α → Option Int) (N : Nat) (vs : List α) :
    ∀ (slots : List (Option α)) (others : List α), slots.length = N →
      (∀ (j : Nat) v, slots[j]? = some (some v) → num v = some (j : Int)) →
      (∀ v ∈ vs, ∀ i, num v = some i → 0 ≤ i ∧ i < N ∧ slots[i.toNat]? = some none) →
      vs.Pairwise (fun v w => num v = none ∨ num v ≠ num w) →
      ∃ slots', slotGo num slots others vs = .ok (slots', others ++ vs.filter (fun v => (num v).isNone)) ∧
        (∀ (j : Nat) v, slots'[j]? = some (some v) → num v = some (j : Int)) ∧
        (slots'.filterMap id).Perm (slots.filterMap id ++ vs.filter (fun v => (num v).isSome)) := by
  induction vs with
  | nil => intro slots others _ h _ _; exact ⟨slots, by simp [slotGo], h, by simp⟩
  | cons v vs ih =>
    intro slots others hlen hnum hfit hpw
    rw [List.pairwise_cons] at hpw
    cases hv : num v with
    | none =>
      obtain ⟨slots', h1, h2, h3⟩ := ih slots (others ++ [v]) hlen hnum
        (fun u hu => hfit u (List.mem_cons_of_mem _ hu)) hpw.2
      refine ⟨slots', ?_, h2, ?_⟩
      · simp only [slotGo, hv, h1]
        simp [hv]
      · simpa [hv] using h3
    | some i =>
      obtain ⟨f1, f2, f3⟩ := hfit v (by simp) i hv
      have hset : setSlot slots i v = .ok (slots.set i.toNat (some v)) := by
        unfold setSlot; rw [if_pos ⟨f1, by omega⟩]
      have hnum' : ∀ (j : Nat) u, (slots.set i.toNat (some v))[j]? = some (some u) → num u = some (j : Int) := by
        intro j u hj
        rw [List.getElem?_set] at hj
        split at hj
        · rename_i hij
          split at hj
          · simp at hj; subst hj; rw [hv, ← hij]; simp; omega
          · cases hj
        · exact hnum j u hj
      obtain ⟨slots', h1, h2, h3⟩ := ih (slots.set i.toNat (some v)) others (by simp [hlen]) hnum' (by
        intro u hu k hk
        obtain ⟨g1, g2, g3⟩ := hfit u (List.mem_cons_of_mem _ hu) k hk
        refine ⟨g1, g2, ?_⟩
        rw [List.getElem?_set]
        have hne : i ≠ k := by
          rintro rfl
          rcases hpw.1 u hu with h | h
          · rw [hv] at h; cases h
          · exact h (by rw [hv, hk])
        rw [if_neg (by omega)]
        exact g3) hpw.2
      refine ⟨slots', ?_, h2, ?_⟩
      · simp only [slotGo, hv, hset, ok_bind, h1]
        simp [hv]
      · refine h3.trans ?_
        simp only [List.filter_cons, hv, Option.isSome_some, if_true]
        exact ((filterMap_set_none slots i.toNat v f3).append_right _).trans List.perm_middle.symm

theorem slots_sorted {α : Type} (num : α → Option Int) (slots : List (Option α)) (off : Nat)
    (h : ∀ (j : Nat) v, slots[j]? = some (some v) → num v = some ((off + j : Nat) : Int)) :
    (slots.filterMap id).Pairwise (fun v w => ∃ i j, num v = some i ∧ num w = some j ∧ i < j) := by
  induction slots generalizing off with
  | nil => simp
  | cons x xs ih =>
    have ih' := ih (off + 1) (fun j v hj => by
      have := h (j + 1) v (by simpa using hj)
      rw [this]; congr 2; omega)
    cases x with
    | none => simpa using ih'
    | some y =>
      simp only [List.filterMap_cons, id, List.pairwise_cons]
      refine ⟨?_, ih'⟩
      intro w hw
      obtain ⟨o, ho, rfl⟩ : ∃ o ∈ xs, o = some w := by
        obtain ⟨o, ho, he⟩ := List.mem_filterMap.1 hw
        exact ⟨o, ho, he⟩
      obtain ⟨k, hk⟩ := List.getElem?_of_mem ho
      have h1 := h 0 y (by simp)
      have h2 := h (k + 1) w (by simpa using hk)
      exact ⟨_, _, h1, h2, by omega⟩

theorem perm_filter_split {α : Type} (p : α → Bool) (l : List α) :
    (l.filter p ++ l.filter (fun a => !p a)).Perm l := by
  induction l with
  | nil => simp
  | cons a l ih =>
    cases h : p a
    · simp only [List.filter_cons, h, Bool.not_false, if_true, Bool.false_eq_true, if_false]
      exact List.perm_middle.trans (ih.cons a)
    · simp only [List.filter_cons, h, Bool.not_true, if_true, Bool.false_eq_true, if_false, List.cons_append]
      exact ih.cons a

theorem reorderBy_ok {α : Type} (num : α → Option Int) (vars : List α) (h : NumbersFit num vars) :
    ∃ r, reorderBy num vars = .ok r ∧ InStoredOrder num vars r := by
  obtain ⟨slots, h1, h2, h3⟩ := slotGo_spec num 1000 vars (List.replicate 1000 none) [] List.length_replicate
    (by intro j v hj; rw [List.getElem?_replicate] at hj; split at hj <;> cases hj)
    (by
      intro v hv i hi
      obtain ⟨a, b⟩ := h.1 v hv i hi
      refine ⟨a, by omega, ?_⟩
      rw [List.getElem?_replicate, if_pos (by omega)]) h.2
  have hnone : (List.replicate 1000 (none : Option α)).filterMap id = [] := by
    rw [List.filterMap_replicate_of_none]; rfl
  rw [hnone, List.nil_append] at h3
  refine ⟨slots.filterMap id ++ vars.filter (fun v => (num v).isNone), ?_, slots.filterMap id, rfl, ?_, ?_, ?_⟩
  · unfold reorderBy; rw [h1]; rfl
  · exact slots_sorted num slots 0 (fun j v hj => by rw [h2 j v hj]; simp)
  · intro v hv
    have := h3.mem_iff.1 hv
    exact (List.mem_filter.1 this).2
  · refine (h3.append_right _).trans ?_
    have := perm_filter_split (fun v => (num v).isSome) vars
    have e : (fun v => !(num v).isSome) = (fun v => (num v).isNone) := by
      funext v; cases num v <;> rfl
    rw [e] at this
    exact this

/-! ### One pass -/

theorem sortStep_lists {env : XEnv F} {b : XVar F} {zeroIds : List Str} {s s' : SortState F} {v : XVar F}
    (h : sortStep env b zeroIds s v = .ok s') :
    ∃ m x u, s'.main = s.main ++ m ∧ s'.aux = s.aux ++ x ∧ s'.unused = s.unused ++ u ∧
      m.Sublist [v] ∧ x.Sublist [v] ∧ u.Sublist [v] := by
  have none_ : ([] : List (XVar F)).Sublist [v] := List.nil_sublist _
  have one : [v].Sublist [v] := List.Sublist.refl _
  unfold sortStep at h
  split at h
  · injection h with h; subst h
    exact ⟨[], [], [], by simp, by simp, by simp, none_, none_, none_⟩
  · split at h
    · split at h
      · obtain ⟨ax0, _, h3⟩ := ok_of_bind h
        unfold sortOneDim at h3
        split at h3
        · split at h3 <;> (injection h3 with h3; subst h3)
          · exact ⟨[], [], [v], by simp, by simp, by simp, none_, none_, one⟩
          · exact ⟨[], [v], [], by simp, by simp, by simp, none_, one, none_⟩
        · split at h3
          · cases h3
          · injection h3 with h3; subst h3
            exact ⟨[], [], [v], by simp, by simp, by simp, none_, none_, one⟩
          · injection h3 with h3; subst h3
            exact ⟨[], [], [v], by simp, by simp, by simp, none_, none_, one⟩
          · injection h3 with h3; subst h3
            exact ⟨[], [], [], by simp, by simp, by simp, none_, none_, none_⟩
      · injection h with h; subst h
        exact ⟨[], [], [v], by simp, by simp, by simp, none_, none_, one⟩
    · split at h <;> (injection h with h; subst h)
      · exact ⟨[v], [], [], by simp, by simp, by simp, one, none_, none_⟩
      · exact ⟨[], [], [v], by simp, by simp, by simp, none_, none_, one⟩

theorem sortGo_lists {env : XEnv F} {b : XVar F} {zeroIds : List Str} {s s' : SortState F}
    {vs : List (XVar F)} (h : sortGo env b zeroIds s vs = .ok s') :
    ∃ m x u, s'.main = s.main ++ m ∧ s'.aux = s.aux ++ x ∧ s'.unused = s.unused ++ u ∧
      m.Sublist vs ∧ x.Sublist vs ∧ u.Sublist vs := by
  induction vs generalizing s with
  | nil =>
    injection h with h; subst h
    exact ⟨[], [], [], by simp, by simp, by simp, List.nil_sublist _, List.nil_sublist _, List.nil_sublist _⟩
  | cons v vs ih =>
    obtain ⟨s1, h1, h2⟩ := ok_of_bind h
    obtain ⟨m1, x1, u1, a1, a2, a3, a4, a5, a6⟩ := sortStep_lists h1
    obtain ⟨m2, x2, u2, b1, b2, b3, b4, b5, b6⟩ := ih h2
    refine ⟨m1 ++ m2, x1 ++ x2, u1 ++ u2, by rw [b1, a1, List.append_assoc], by rw [b2, a2, List.append_assoc],
      by rw [b3, a3, List.append_assoc], ?_, ?_, ?_⟩
    · exact a4.append b4
    · exact a5.append b5
    · exact a6.append b6

/-- What a successful pass is made of. -/
structure PassParts (env : XEnv F) (requested : Option Int) (vars : List (XVar F)) (a : Analysis F) where
  i : Nat
  b : XVar F
  m : List (XVar F)
  x : List (XVar F)
  s : SortState F
  ffis : Option (List Int)
  best : bestGo none 0 vars = some (i, b)
  first : initialFFIs env b = .ok ffis
  sorted : sortGo env b ((rankZeroVars vars).map XVar.name)
    { main := [b], aux := [], unused := [], ffis := ffis, nvpm := none } (vars.eraseIdx i) = .ok s
  main : s.main = b :: m
  aux : s.aux = x
  subM : m.Sublist (vars.eraseIdx i)
  subX : x.Sublist (vars.eraseIdx i)
  subU : s.unused.Sublist (vars.eraseIdx i)
  orderM : reorderBy XVar.naNumber s.main = .ok a.main
  orderX : reorderBy XVar.naAuxNumber s.aux = .ok a.aux
  decided : decideFFI requested b.rank a.aux.length s.ffis = .ok a.ffi
  zero : a.zero = rankZeroVars vars
  unused : a.unused = s.unused
  niv : a.niv = b.rank
  nvpm : a.nvpm = s.nvpm

theorem analyse_parts {env : XEnv F} {requested : Option Int} {vars : List (XVar F)} {a : Analysis F}
    (h : analyse env requested vars = .ok (some a)) : Nonempty (PassParts env requested vars a) := by
  unfold analyse at h
  split at h
  · injection h with h; cases h
  · rename_i i b hb
    obtain ⟨ffis, h1, h2⟩ := ok_of_bind h
    obtain ⟨s, h3, h4⟩ := ok_of_bind h2
    obtain ⟨main, h5, h6⟩ := ok_of_bind h4
    obtain ⟨aux, h7, h8⟩ := ok_of_bind h6
    obtain ⟨ffi, h9, h10⟩ := ok_of_bind h8
    injection h10 with h10
    injection h10 with h10
    subst h10
    obtain ⟨m, x, u, b1, b2, b3, b4, b5, b6⟩ := sortGo_lists h3
    exact ⟨{ i := i, b := b, m := m, x := x, s := s, ffis := ffis, best := hb, first := h1, sorted := h3,
             main := by simpa using b1, aux := by simpa using b2, subM := b4, subX := b5,
             subU := by have e : s.unused = u := by simpa using b3
                        rw [e]; exact b6,
             orderM := h5, orderX := h7, decided := h9, zero := rfl, unused := rfl, niv := rfl,
             nvpm := rfl }⟩

theorem analyse_shorter {env : XEnv F} {requested : Option Int} {vars : List (XVar F)} {a : Analysis F}
    (h : analyse env requested vars = .ok (some a)) : a.unused.length < vars.length := by
  obtain ⟨p⟩ := analyse_parts h
  have h1 := p.subU.length_le
  have h2 := (best_some p.best).1
  have h3 := (perm_eraseIdx h2).length_eq
  rw [p.unused]
  simp only [List.length_cons] at h3
  omega

/-! ### The loop of `convert` -/

theorem convertLoop_fuel {α β : Type} (pass : List α → Res (Option (β × List α)))
    (hs : ∀ l b u, pass l = .ok (some (b, u)) → u.length < l.length) (n : Nat) :
    ∀ (l : List α) (k : Nat), l.length ≤ n → l.length ≤ k → convertLoop pass n l = convertLoop pass k l := by
  induction n with
  | zero =>
    intro l k hn hk
    cases l with
    | nil => cases k <;> rfl
    | cons v vs => simp at hn
  | succ n ih =>
    intro l k hn hk
    cases l with
    | nil => cases k <;> rfl
    | cons v vs =>
      cases k with
      | zero => simp at hk
      | succ k =>
        simp only [convertLoop]
        cases hp : pass (v :: vs) with
        | error e => rfl
        | ok r =>
          cases r with
          | none => rfl
          | some bu =>
            obtain ⟨b, u⟩ := bu
            have := hs _ _ _ hp
            simp only [List.length_cons] at this hn hk
            simp only [ok_bind]
            rw [ih u k (by omega) (by omega)]

theorem convertLoop_no_hang {α β : Type} (pass : List α → Res (Option (β × List α)))
    (hs : ∀ l b u, pass l = .ok (some (b, u)) → u.length < l.length)
    (hh : ∀ l, pass l ≠ .error .hang) (n : Nat) :
    ∀ (l : List α), l.length ≤ n → convertLoop pass n l ≠ .error .hang := by
  induction n with
  | zero =>
    intro l hn
    cases l with
    | nil => intro h; cases h
    | cons v vs => simp at hn
  | succ n ih =>
    intro l hn
    cases l with
    | nil => intro h; cases h
    | cons v vs =>
      simp only [convertLoop]
      cases hp : pass (v :: vs) with
      | error e => intro h; injection h with h; exact hh _ (h ▸ hp)
      | ok r =>
        cases r with
        | none => intro h; cases h
        | some bu =>
          obtain ⟨b, u⟩ := bu
          have := hs _ _ _ hp
          simp only [List.length_cons] at this hn
          have := ih u (by omega)
          simp only [ok_bind]
          cases hl : convertLoop pass n u with
          | error e => intro h; injection h with h; exact this (h ▸ hl)
          | ok l => intro h; cases h

theorem convertLoop_count {α β : Type} (pass : List α → Res (Option (β × List α)))
    (hs : ∀ l b u, pass l = .ok (some (b, u)) → u.length < l.length) (n : Nat) :
    ∀ (l : List α) (r : List β), convertLoop pass n l = .ok r → r.length ≤ l.length := by
  induction n with
  | zero =>
    intro l r h
    cases l with
    | nil => injection h with h; subst h; simp
    | cons v vs => cases h
  | succ n ih =>
    intro l r h
    cases l with
    | nil => injection h with h; subst h; simp
    | cons v vs =>
      obtain ⟨o, h1, h2⟩ := ok_of_bind h
      cases o with
      | none => injection h2 with h2; subst h2; simp
      | some bu =>
        obtain ⟨b, u⟩ := bu
        obtain ⟨rest, h3, h4⟩ := ok_of_bind h2
        injection h4 with h4; subst h4
        have e1 := hs _ _ _ h1
        have e2 := ih u rest h3
        simp only [List.length_cons] at e1 ⊢
        omega

theorem setSlot_no_hang {α : Type} (l : List (Option α)) (i : Int) (a : α) : setSlot l i a ≠ .error .hang := by
  unfold setSlot
  split
  · intro h; cases h
  · split <;> (intro h; cases h)

theorem slotGo_no_hang {α : Type} (num : α → Option Int) (vs : List α) :
    ∀ slots others, slotGo num slots others vs ≠ .error .hang := by
  induction vs with
  | nil => intro s o h; cases h
  | cons v vs ih =>
    intro s o
    simp only [slotGo]
    cases num v with
    | none => exact ih _ _
    | some i =>
      dsimp only
      cases hs : setSlot s i v with
      | error e => intro h; injection h with h; exact setSlot_no_hang s i v (h ▸ hs)
      | ok s' => exact ih _ _

theorem bind_no_hang {α β : Type} {x : Res α} {f : α → Res β} (h1 : x ≠ .error .hang)
    (h2 : ∀ a, f a ≠ .error .hang) : (x >>= f) ≠ .error .hang := by
  cases x with
  | error e => intro h; injection h with h; exact h1 (h ▸ rfl)
  | ok a => exact h2 a

theorem idx_no_hang {α : Type} (l : List α) (i : Nat) : idx l i ≠ .error .hang := by
  unfold idx; split <;> (intro h; cases h)

theorem subsetGo_no_hang (eq : F → F → Bool) (n : Nat) (ys xs : List F) :
    ∀ i, subsetGo eq n ys i xs ≠ .error .hang := by
  induction xs with
  | nil => intro i h; cases h
  | cons x xs ih =>
    intro i
    simp only [subsetGo]
    refine bind_no_hang (idx_no_hang _ _) fun y => ?_
    split
    · exact ih _
    · intro h; cases h

theorem subsetFactor_no_hang (eq : F → F → Bool) (a b : XAxis F) : subsetFactor eq a b ≠ .error .hang := by
  unfold subsetFactor
  split
  · intro h; cases h
  · split
    · intro h; cases h
    · split
      · intro h; cases h
      · exact bind_no_hang (subsetGo_no_hang _ _ _ _ _) fun _ h => by cases h

theorem sortGo_no_hang (env : XEnv F) (b : XVar F) (z : List Str) (vs : List (XVar F)) :
    ∀ s, sortGo env b z s vs ≠ .error .hang := by
  induction vs with
  | nil => intro s h; cases h
  | cons v vs ih =>
    intro s
    simp only [sortGo]
    refine bind_no_hang ?_ fun s' => ih s'
    unfold sortStep
    split
    · intro h; cases h
    · split
      · split
        · refine bind_no_hang (idx_no_hang _ _) fun ax => ?_
          unfold sortOneDim
          split
          · split <;> (intro h; cases h)
          · split
            · rename_i e he
              intro h; injection h with h; exact subsetFactor_no_hang _ _ _ (h ▸ he)
            all_goals (intro h; cases h)
        · intro h; cases h
      · split <;> (intro h; cases h)

theorem decideFFI_no_hang (requested : Option Int) (dims naux : Nat) (ffis : Option (List Int)) :
    decideFFI requested dims naux ffis ≠ .error .hang := by
  unfold decideFFI
  split
  · split <;> (intro h; cases h)
  · refine bind_no_hang ?_ fun f => ?_
    · unfold ffiForDims
      repeat' split
      all_goals (intro h; cases h)
    · split
      · split <;> (intro h; cases h)
      · intro h; cases h

theorem analyse_no_hang (env : XEnv F) (hu : ∀ a, env.uniform a ≠ .error .hang) (requested : Option Int)
    (vars : List (XVar F)) : analyse env requested vars ≠ .error .hang := by
  unfold analyse
  split
  · intro h; cases h
  · refine bind_no_hang ?_ fun _ => bind_no_hang (sortGo_no_hang _ _ _ _ _) fun _ =>
      bind_no_hang (bind_no_hang (slotGo_no_hang _ _ _ _) fun _ h => by cases h) fun _ =>
      bind_no_hang (bind_no_hang (slotGo_no_hang _ _ _ _) fun _ h => by cases h) fun _ =>
      bind_no_hang (decideFFI_no_hang _ _ _ _) fun _ h => by cases h
    unfold initialFFIs
    split
    · exact bind_no_hang (idx_no_hang _ _) fun a => bind_no_hang (hu a) fun _ h => by cases h
    · intro h; cases h

theorem analysePass_some {env : XEnv F} {requested : Option Int} {vars : List (XVar F)} {a : Analysis F}
    {u : List (XVar F)} (h : analysePass env requested vars = .ok (some (a, u))) :
    analyse env requested vars = .ok (some a) ∧ u = a.unused := by
  obtain ⟨o, h1, h2⟩ := ok_of_bind h
  injection h2 with h2
  cases o with
  | none => cases h2
  | some a' =>
    simp only [Option.map_some, Option.some.injEq, Prod.mk.injEq] at h2
    obtain ⟨rfl, rfl⟩ := h2
    exact ⟨h1, rfl⟩

theorem analysePass_shorter {env : XEnv F} {requested : Option Int} (l : List (XVar F)) (a : Analysis F)
    (u : List (XVar F)) (h : analysePass env requested l = .ok (some (a, u))) : u.length < l.length := by
  obtain ⟨h1, rfl⟩ := analysePass_some h
  exact analyse_shorter h1

/-! ### Accounting for the variables -/

theorem numbersFit_perm {α : Type} {num : α → Option Int} {l l' : List α} (h : NumbersFit num l)
    (hp : l.Perm l') : NumbersFit num l' := by
  refine ⟨fun v hv => h.1 v (hp.mem_iff.2 hv), (hp.pairwise_iff ?_).1 h.2⟩
  intro v w hvw
  by_cases hw : num w = none
  · exact .inl hw
  · right
    intro e
    rcases hvw with hv | hv
    · exact hw (by rw [e, hv])
    · exact hv e.symm

theorem numbersFit_sub {α : Type} {num : α → Option Int} {l l' : List α} (h : NumbersFit num l)
    (hs : l'.Sublist l) : NumbersFit num l' :=
  ⟨fun v hv => h.1 v (hs.subset hv), h.2.sublist hs⟩

theorem analyse_account {env : XEnv F} {requested : Option Int} {vars : List (XVar F)} {a : Analysis F}
    (h : analyse env requested vars = .ok (some a)) (hn : NamesApart vars) (hs : NoSubsets env.eq vars)
    (h1 : NumbersFit XVar.naNumber vars) (h2 : NumbersFit XVar.naAuxNumber vars) :
    (a.main ++ a.aux ++ a.zero ++ a.unused).Perm vars ∧ a.unused.Sublist vars ∧
      (∀ v ∈ a.unused, v.axes ≠ []) ∧ a.main ≠ [] ∧
      InStoredOrder XVar.naNumber a.main a.main ∧ InStoredOrder XVar.naAuxNumber a.aux a.aux := by
  obtain ⟨p⟩ := analyse_parts h
  obtain ⟨hb1, hb2, _⟩ := best_some p.best
  have hperm := perm_eraseIdx hb1
  have hsubE : (vars.eraseIdx p.i).Sublist vars := List.eraseIdx_sublist _ _
  have hbmem : p.b ∈ vars := List.mem_of_getElem? hb1
  have hbax : p.b.axes ≠ [] := by
    intro e; exact hb2 (by simp [XVar.rank, e])
  obtain ⟨lost, l1, l2, l3⟩ := sortGo_perm hb2 p.sorted
  dsimp only at l3
  -- names of the singletons
  have hz : ∀ v ∈ vars, v.name ∈ (rankZeroVars vars).map XVar.name → v.axes = [] := by
    intro v hv hname
    obtain ⟨w, hw, e⟩ := List.mem_map.1 hname
    obtain ⟨hw1, hw2⟩ := List.mem_filter.1 hw
    have hwax : w.axes = [] := by
      have : w.axes.length = 0 := by simpa [XVar.rank] using hw2
      exact List.eq_nil_of_length_eq_zero this
    by_contra hne
    exact hn v hv w hw1 hne hwax e.symm
  have hlost : ∀ v ∈ lost, v.axes = [] := by
    intro v hv
    have hvm : v ∈ vars := hsubE.subset (l1.subset hv)
    rcases l2 v hv with hz' | ⟨c, ax0, more, n, e1, e2, e3, e4⟩
    · exact hz v hvm hz'
    · rcases hs v hvm p.b hbmem c ax0 more e1 e2 with h | h
      · rw [h] at e3; cases e3
      · rw [h] at e4; injection e4 with e4; cases e4
  have hkeep : ∀ v ∈ p.s.main ++ p.s.aux ++ p.s.unused, v.axes ≠ [] := by
    refine sortGo_unused p.sorted (fun v => v.axes ≠ []) ?_ ?_
    · simp [hbax]
    · intro v hv hnz e
      refine hnz (List.mem_map.2 ⟨v, List.mem_filter.2 ⟨hsubE.subset hv, ?_⟩, rfl⟩)
      simp [XVar.rank, e]
  -- the lost ones are exactly the singletons
  have hall : (p.s.main ++ p.s.aux ++ p.s.unused ++ lost).Perm vars := by
    refine l3.symm.trans ?_
    simp only [List.append_nil, List.singleton_append]
    exact hperm.symm
  have hzero : lost.Perm (rankZeroVars vars) := by
    have e1 : lost = (p.s.main ++ p.s.aux ++ p.s.unused ++ lost).filter (fun v => v.rank == 0) := by
      rw [List.filter_append]
      have e2 : (p.s.main ++ p.s.aux ++ p.s.unused).filter (fun v => v.rank == 0) = [] := by
        rw [List.filter_eq_nil_iff]
        intro v hv
        have := hkeep v hv
        simp only [beq_iff_eq, XVar.rank]
        intro e
        exact this (List.eq_nil_of_length_eq_zero e)
      have e3 : lost.filter (fun v => v.rank == 0) = lost := by
        rw [List.filter_eq_self]
        intro v hv
        simp [XVar.rank, hlost v hv]
      rw [e2, e3]; rfl
    rw [e1]
    exact hall.filter _
  have fitM : NumbersFit XVar.naNumber p.s.main := by
    rw [p.main]
    exact numbersFit_sub (numbersFit_perm h1 hperm) (p.subM.cons_cons _)
  have fitX : NumbersFit XVar.naAuxNumber p.s.aux := by
    rw [p.aux]
    exact numbersFit_sub h2 (p.subX.trans hsubE)
  obtain ⟨r1, q1, q2⟩ := reorderBy_ok _ _ fitM
  obtain ⟨r2, q3, q4⟩ := reorderBy_ok _ _ fitX
  rw [p.orderM] at q1; injection q1 with q1; subst q1
  rw [p.orderX] at q3; injection q3 with q3; subst q3
  obtain ⟨n1, o1, o2, o3, pm⟩ := q2
  obtain ⟨n2, o5, o6, o7, px⟩ := q4
  refine ⟨?_, ?_, ?_, ?_, ?_, ?_⟩
  · rw [p.zero, p.unused]
    refine List.Perm.trans ?_ hall
    refine List.Perm.trans ?_ ((hzero.symm.append_left _))
    refine List.Perm.trans (l₂ := a.main ++ a.aux ++ (p.s.unused ++ rankZeroVars vars)) ?_ ?_
    · rw [List.append_assoc (a.main ++ a.aux)]
      exact List.Perm.append_left _ List.perm_append_comm
    · rw [← List.append_assoc]
      exact ((pm.append px).append_right _).append_right _
  · rw [p.unused]; exact p.subU.trans hsubE
  · rw [p.unused]
    intro v hv
    exact hkeep v (List.mem_append.2 (.inr hv))
  · intro e
    have := pm.length_eq
    rw [e, p.main] at this
    simp at this
  · refine ⟨n1, ?_, o2, o3, List.Perm.refl _⟩
    have hf : a.main.filter (fun v => v.naNumber.isNone) = p.s.main.filter (fun v => v.naNumber.isNone) := by
      rw [o1, List.filter_append, List.filter_filter]
      have : n1.filter (fun v => v.naNumber.isNone) = [] := by
        rw [List.filter_eq_nil_iff]
        intro v hv hc
        have := o3 v hv
        cases hq : v.naNumber <;> simp_all
      rw [this]; simp
    rw [hf]; exact o1
  · refine ⟨n2, ?_, o6, o7, List.Perm.refl _⟩
    have hf : a.aux.filter (fun v => v.naAuxNumber.isNone)
        = p.s.aux.filter (fun v => v.naAuxNumber.isNone) := by
      rw [o5, List.filter_append, List.filter_filter]
      have : n2.filter (fun v => v.naAuxNumber.isNone) = [] := by
        rw [List.filter_eq_nil_iff]
        intro v hv hc
        have := o7 v hv
        cases hq : v.naAuxNumber <;> simp_all
      rw [this]; simp
    rw [hf]; exact o5

theorem convertLoop_account {env : XEnv F} {requested : Option Int} (n : Nat) :
    ∀ (vars : List (XVar F)) (r : List (Analysis F)),
      convertLoop (analysePass env requested) n vars = .ok r → (∀ v ∈ vars, v.axes ≠ []) →
      NoSubsets env.eq vars → NumbersFit XVar.naNumber vars → NumbersFit XVar.naAuxNumber vars →
      (r.flatMap taken).Perm vars := by
  induction n with
  | zero =>
    intro l r h
    cases l with
    | nil => injection h with h; subst h; simp
    | cons v vs => cases h
  | succ n ih =>
    intro l r h hax hs h1 h2
    cases l with
    | nil => injection h with h; subst h; simp
    | cons v vs =>
      have hn : NamesApart (v :: vs) := fun u hu w hw _ hwe => absurd hwe (hax w hw)
      obtain ⟨o, h3, h4⟩ := ok_of_bind h
      cases o with
      | none =>
        exfalso
        obtain ⟨o', h5, h6⟩ := ok_of_bind h3
        injection h6 with h6
        cases o' with
        | some a => cases h6
        | none =>
          unfold analyse at h5
          split at h5
          · rename_i hb
            have := best_none hb v (by simp)
            exact hax v (by simp) (List.eq_nil_of_length_eq_zero this)
          · repeat (obtain ⟨_, _, h5⟩ := ok_of_bind h5)
            injection h5 with h5; cases h5
      | some bu =>
        obtain ⟨a, u⟩ := bu
        obtain ⟨rest, h5, h6⟩ := ok_of_bind h4
        injection h6 with h6; subst h6
        obtain ⟨h7, rfl⟩ := analysePass_some h3
        obtain ⟨c1, c2, c3, _⟩ := analyse_account h7 hn hs h1 h2
        have := ih a.unused rest h5 c3 (fun x hx w hw => hs x (c2.subset hx) w (c2.subset hw)) (numbersFit_sub h1 c2)
          (numbersFit_sub h2 c2)
        simp only [List.flatMap_cons, taken]
        exact (this.append_left _).trans c1

/-! ### The format -/

theorem mapRes_errC {α β : Type} {f : α → Res β} {l : List α} {x : Err} (h : mapRes f l = .error x) :
    ∃ a ∈ l, f a = .error x := by
  induction l with
  | nil => cases h
  | cons a t ih =>
    simp only [mapRes] at h
    cases h1 : f a with
    | error e => rw [h1] at h; injection h with h; subst h; exact ⟨a, by simp, h1⟩
    | ok b =>
      rw [h1] at h
      simp only [ok_bind] at h
      cases h2 : mapRes f t with
      | error e =>
        rw [h2] at h; injection h with h; subst h
        obtain ⟨c, hc, hc2⟩ := ih h2
        exact ⟨c, by simp [hc], hc2⟩
      | ok bs => rw [h2] at h; cases h

theorem ffis_dims {env : XEnv F} {b : XVar F} {ffis : Option (List Int)}
    (h : initialFFIs env b = .ok ffis) : ∀ l, ffis = some l → ∀ f ∈ l, formatDims f = b.rank := by
  unfold initialFFIs at h
  split at h
  · rename_i hr
    obtain ⟨ax, _, h1⟩ := ok_of_bind h
    obtain ⟨u, _, h2⟩ := ok_of_bind h1
    injection h2 with h2
    subst h2
    intro l hl f hf
    injection hl with hl
    subst hl
    rw [hr]
    cases u <;> simp at hf <;> rcases hf with rfl | rfl | rfl <;> rfl
  · injection h with h
    subst h
    intro l hl; cases hl

theorem sortStep_ffis {env : XEnv F} {b : XVar F} {z : List Str} {s s' : SortState F} {v : XVar F}
    (h : sortStep env b z s v = .ok s') :
    (s'.ffis = s.ffis ∧ s'.nvpm = s.nvpm) ∨ (s'.ffis = some [1020] ∧ ∃ n, s'.nvpm = some n) := by
  unfold sortStep at h
  split at h
  · injection h with h; subst h; exact .inl ⟨rfl, rfl⟩
  · split at h
    · split at h
      · obtain ⟨ax0, _, h3⟩ := ok_of_bind h
        unfold sortOneDim at h3
        split at h3
        · split at h3 <;> (injection h3 with h3; subst h3; exact .inl ⟨rfl, rfl⟩)
        · split at h3
          · cases h3
          · injection h3 with h3; subst h3; exact .inl ⟨rfl, rfl⟩
          · injection h3 with h3; subst h3; exact .inl ⟨rfl, rfl⟩
          · injection h3 with h3; subst h3; exact .inr ⟨rfl, _, rfl⟩
      · injection h with h; subst h; exact .inl ⟨rfl, rfl⟩
    · split at h <;> (injection h with h; subst h; exact .inl ⟨rfl, rfl⟩)

theorem sortGo_ffis {env : XEnv F} {b : XVar F} {z : List Str} {s s' : SortState F} {vs : List (XVar F)}
    (h : sortGo env b z s vs = .ok s') {p : List Int → Prop} (hs : ∀ l, s.ffis = some l → p l) :
    ((∀ l, s'.ffis = some l → p l) ∧ s'.nvpm = s.nvpm) ∨ (s'.ffis = some [1020] ∧ ∃ n, s'.nvpm = some n) := by
  have key : (s'.ffis = s.ffis ∧ s'.nvpm = s.nvpm) ∨ (s'.ffis = some [1020] ∧ ∃ n, s'.nvpm = some n) := by
    clear hs
    induction vs generalizing s with
    | nil => injection h with h; subst h; exact .inl ⟨rfl, rfl⟩
    | cons v vs ih =>
      obtain ⟨s1, h1, h2⟩ := ok_of_bind h
      rcases sortStep_ffis h1 with ⟨e1, e2⟩ | ⟨e1, n, e2⟩ <;> rcases ih h2 with ⟨e3, e4⟩ | ⟨e3, m, e4⟩
      · exact .inl ⟨by rw [e3, e1], by rw [e4, e2]⟩
      · exact .inr ⟨e3, m, e4⟩
      · exact .inr ⟨by rw [e3, e1], n, by rw [e4, e2]⟩
      · exact .inr ⟨e3, m, e4⟩
  rcases key with ⟨e1, e2⟩ | h
  · exact .inl ⟨fun l hl => hs l (by rw [← e1]; exact hl), e2⟩
  · exact .inr h

theorem ffiForDims_dims {requested : Option Int} {dims naux : Nat} {f : Int}
    (h : ffiForDims requested dims naux = .ok f) (hd : 0 < dims) : formatDims f = dims := by
  unfold ffiForDims at h
  split at h
  · cases h
  · split at h
    · injection h with h; subst h
      have : dims = 3 ∨ dims = 4 := by omega
      rcases this with rfl | rfl <;> rfl
    · split at h
      · rename_i h2
        injection h with h; subst h
        rw [h2]
        split
        · split
          · rename_i hr
            rcases hr with rfl | rfl | rfl <;> rfl
          · rfl
        · rfl
      · have : dims = 1 := by omega
        subst this
        split at h <;> (injection h with h; subst h; rfl)

theorem decide_dims {requested : Option Int} {dims naux : Nat} {ffis : Option (List Int)} {f : Int}
    (h : decideFFI requested dims naux ffis = .ok f) (hd : 0 < dims)
    (hl : ∀ l, ffis = some l → ∀ g ∈ l, formatDims g = dims) : formatDims f = dims := by
  unfold decideFFI at h
  split at h
  · rename_i r l hreq
    split at h
    · rename_i hm
      injection h with h
      subst h
      exact hl l rfl r hm
    · cases h
  · obtain ⟨g, h1, h2⟩ := ok_of_bind h
    have := ffiForDims_dims h1 hd
    split at h2
    · split at h2
      · injection h2 with h2; subst h2; exact this
      · cases h2
    · injection h2 with h2; subst h2; exact this

end Nappy
