import Verif.Spec.Uniform
import Verif.Props.Shared
import Mathlib.Tactic.FieldSimp
import Mathlib.Tactic.Ring
import Mathlib.Tactic.NormNum
import Mathlib.Tactic.LinearCombination

/-! C95. Axes are recognised as evenly spaced. -/

namespace Nappy.Props

open Nappy Nappy.Spec

/-! ### Lemmas -/

theorem sortGo_ffis_none {F : Type} {env : XEnv F} {b : XVar F} {z : List Str} {s s' : SortState F} {vs : List (XVar F)}
    (h : sortGo env b z s vs = .ok s') (hn : s'.ffis = none) : s.ffis = none := by
  induction vs generalizing s with
  | nil => injection h with h; subst h; exact hn
  | cons v vs ih =>
    obtain ⟨s1, h1, h2⟩ := ok_of_bind h
    rcases sortStep_ffis h1 with ⟨e1, -⟩ | ⟨e1, -⟩
    · rw [← e1]; exact ih h2
    · rw [ih h2] at e1; cases e1

theorem ffiForDims_2310 {requested : Option Int} {dims naux : Nat} (h : ffiForDims requested dims naux = .ok 2310) :
    dims = 2 ∧ requested = some 2310 := by
  unfold ffiForDims at h
  split at h
  · cases h
  · split at h
    · have := Except.ok.inj h
      omega
    · split at h
      · rename_i h2
        refine ⟨h2, ?_⟩
        have h := Except.ok.inj h
        split at h
        · split at h
          · rw [h]
          · cases h
        · cases h
      · split at h <;> cases h

section
variable {K : Type} [Field K] [CharZero K] [DecidableEq K]

theorem exact_point (start stop : K) {n : Nat} (hn : 1 < n) (i : Nat) :
    (exactArith K).point start stop n i = start + i * ((stop - start) / ((n - 1 : Nat) : K)) := by
  have h0 : ((n - 1 : Nat) : K) ≠ 0 := by
    rw [Nat.cast_ne_zero]; omega
  unfold Arith.point
  rw [if_neg (by omega)]
  simp only [exactArith, decide_eq_true_eq]
  split <;> rename_i h
  · field_simp
    ring
  · ring

theorem exact_linspace_get (start stop : K) {n : Nat} (hn : 1 < n) {i : Nat} (hi : i < n) :
    ((exactArith K).linspace start stop n)[i]? = some (start + i * ((stop - start) / ((n - 1 : Nat) : K))) := by
  have h0 : ((n - 1 : Nat) : K) ≠ 0 := by
    rw [Nat.cast_ne_zero]; omega
  unfold Arith.linspace
  rw [List.getElem?_map, List.getElem?_range hi, Option.map_some]
  congr 1
  split
  · rename_i h
    rw [h.2]
    field_simp
    ring
  · exact exact_point start stop hn i

theorem evenly_from {l : List K} {d : K} (h : ∀ (i : Nat) x y, l[i]? = some x → l[i + 1]? = some y → y - x = d) {a : K}
    (ha : l[0]? = some a) : ∀ (i : Nat) x, l[i]? = some x → x = a + i * d := by
  intro i
  induction i with
  | zero =>
    intro x hx
    rw [ha] at hx
    rw [← Option.some.inj hx]
    simp
  | succ i ih =>
    intro y hy
    have hi : i < l.length := by
      have := (List.getElem?_eq_some_iff.1 hy).1
      omega
    have h1 := ih _ (List.getElem?_eq_getElem hi)
    have h2 := h i _ _ (List.getElem?_eq_getElem hi) hy
    push_cast
    linear_combination h2 + h1

/-- C95, in part: without rounding, the test succeeds for every axis with a value, and recognises exactly the axes that
are evenly spaced. What is missing: floats, see `C95_double_fails`. -/
theorem C95_exact_partial (l : List K) (hl : l ≠ []) :
    ∃ b, isUniformlySpaced (exactArith K) l = .ok b ∧ (b = true ↔ EvenlySpaced l) := by
  obtain ⟨start, hs⟩ : ∃ start, l.head? = some start := by
    cases l with
    | nil => exact absurd rfl hl
    | cons x t => exact ⟨x, rfl⟩
  obtain ⟨stop, he⟩ : ∃ stop, l.getLast? = some stop := ⟨_, List.getLast?_eq_some_getLast hl⟩
  have hs0 : l[0]? = some start := by rw [← List.head?_eq_getElem?]; exact hs
  have he0 : l[l.length - 1]? = some stop := by rw [← List.getLast?_eq_getElem?]; exact he
  unfold isUniformlySpaced
  rw [hs, he]
  refine ⟨_, rfl, ?_⟩
  have hpos : 0 < l.length := List.length_pos_iff.2 hl
  rcases Nat.lt_or_ge 1 l.length with hn | hn
  · have h0 : ((l.length - 1 : Nat) : K) ≠ 0 := by
      rw [Nat.cast_ne_zero]; omega
    have hlen : ((exactArith K).linspace start stop l.length).length = l.length := by
      simp [Arith.linspace]
    have key : (List.zip ((exactArith K).linspace start stop l.length) l).all (fun p => (exactArith K).eq p.1 p.2) = true ↔
        ∀ (i : Nat) x, l[i]? = some x → x = start + i * ((stop - start) / ((l.length - 1 : Nat) : K)) := by
      rw [List.all_eq_true]
      constructor
      · intro h i x hx
        have hi := (List.getElem?_eq_some_iff.1 hx).1
        have := h (_, x) (List.mem_of_getElem? (List.getElem?_zip_eq_some.2 ⟨exact_linspace_get start stop hn hi, hx⟩))
        simp only [exactArith, decide_eq_true_eq] at this
        exact this.symm
      · intro h p hp
        obtain ⟨i, hi⟩ := List.getElem?_of_mem hp
        obtain ⟨h1, h2⟩ := List.getElem?_zip_eq_some.1 hi
        have hlt := (List.getElem?_eq_some_iff.1 h2).1
        rw [exact_linspace_get start stop hn hlt] at h1
        simp only [exactArith, decide_eq_true_eq]
        rw [h i _ h2, ← Option.some.inj h1]
    rw [key]
    constructor
    · intro h
      refine ⟨(stop - start) / ((l.length - 1 : Nat) : K), fun i x y hx hy => ?_⟩
      rw [h i x hx, h (i + 1) y hy]
      push_cast
      ring
    · rintro ⟨d, hd⟩ i x hx
      have h1 := evenly_from hd hs0
      have h2 := h1 _ _ he0
      rw [h1 i x hx, h2]
      congr 1
      field_simp
      ring
  · obtain ⟨x, rfl⟩ : ∃ x, l = [x] := List.length_eq_one_iff.1 (by omega)
    simp only [List.head?_cons, Option.some.injEq] at hs
    subst hs
    constructor
    · intro _
      refine ⟨0, fun i y z hy hz => ?_⟩
      have := (List.getElem?_eq_some_iff.1 hz).1
      simp at this
    · intro _
      simp [Arith.linspace, Arith.point, exactArith]

/-- C95. An axis that is recognised is given by its first value and its first difference. -/
theorem C95_increment {l : List K} (h : isUniformlySpaced (exactArith K) l = .ok true) {first second : K}
    (h0 : l[0]? = some first) (h1 : l[1]? = some second) :
    ∀ (i : Nat) x, l[i]? = some x → x = first + i * (second - first) := by
  have hl : l ≠ [] := by
    rintro rfl
    cases h0
  obtain ⟨b, e1, e2⟩ := C95_exact_partial l hl
  have : b = true := Except.ok.inj (e1.symm.trans h)
  obtain ⟨d, hd⟩ := e2.1 this
  rw [hd 0 first second h0 h1]
  exact evenly_from hd h0

/-- C95. Format 2310, which stores first value, increment and number of values of the second axis, is chosen only if
without rounding that axis is evenly spaced; this holds for every variable of the file if axes that meet are the same
(C92). -/
theorem C95_2310_partial {env : XEnv K} {requested : Option Int} {vars : List (XVar K)} {a : Analysis K}
    (h : analyse (env.withSpacing (exactArith K)) requested vars = .ok (some a)) (hf : a.ffi = 2310)
    (hd : AxesApart env.eq vars) :
    ∀ v ∈ a.main, ∃ ax0 ax1, v.axes = [ax0, ax1] ∧ ax1.values ≠ [] ∧ EvenlySpaced ax1.values := by
  obtain ⟨p⟩ := analyse_parts h
  have hb : ∃ ax0 ax1, p.b.axes = [ax0, ax1] ∧ isUniformlySpaced (exactArith K) ax1.values = .ok true := by
    have hs := sortGo_ffis p.sorted (p := fun l => 2310 ∈ l → ∃ ax0 ax1, p.b.axes = [ax0, ax1] ∧
      isUniformlySpaced (exactArith K) ax1.values = .ok true) (by
        intro l hl hm
        have hfst := p.first
        dsimp only at hl
        rw [hl] at hfst
        unfold initialFFIs at hfst
        split at hfst
        · rename_i hr
          obtain ⟨ax, c1, hfst⟩ := ok_of_bind hfst
          obtain ⟨u, c2, hfst⟩ := ok_of_bind hfst
          have e := Option.some.inj (Except.ok.inj hfst)
          cases u with
          | false => rw [← e] at hm; simp at hm
          | true =>
            unfold XVar.rank at hr
            obtain ⟨ax0, ax1, hax⟩ := List.length_eq_two.1 hr
            refine ⟨ax0, ax1, hax, ?_⟩
            unfold coordByIndex at c1
            rw [hax] at c1
            have : ax1 = ax := Except.ok.inj c1
            subst this
            exact c2
        · cases Except.ok.inj hfst)
    have hdec := p.decided
    rw [hf] at hdec
    unfold decideFFI at hdec
    split at hdec
    · rename_i r l _ hl
      split at hdec
      · rename_i hr
        have er := Except.ok.inj hdec
        subst er
        rcases hs with ⟨hs, -⟩ | ⟨hs, -⟩
        · exact hs l hl hr
        · rw [hs] at hl
          rw [← Option.some.inj hl] at hr
          simp at hr
      · cases hdec
    · rename_i req hno
      obtain ⟨ffi, hfor, hdec⟩ := ok_of_bind hdec
      have e2310 : ffi = 2310 := by
        split at hdec
        · split at hdec
          · exact Except.ok.inj hdec
          · cases hdec
        · exact Except.ok.inj hdec
      rw [e2310] at hfor
      obtain ⟨hrank, hreq⟩ := ffiForDims_2310 hfor
      exfalso
      cases hff : p.s.ffis with
      | some l => exact hno 2310 l (by rw [hreq]; rfl) hff
      | none =>
        have hfirst := p.first
        have hnone : p.ffis = none := sortGo_ffis_none p.sorted hff
        rw [hnone] at hfirst
        unfold initialFFIs at hfirst
        rw [if_pos hrank] at hfirst
        obtain ⟨_, _, hfirst⟩ := ok_of_bind hfirst
        obtain ⟨_, _, hfirst⟩ := ok_of_bind hfirst
        cases Except.ok.inj hfirst
  obtain ⟨ax0, ax1, h1, h2⟩ := hb
  have hne : ax1.values ≠ [] := by
    intro e
    rw [e] at h2
    cases h2
  have heven : EvenlySpaced ax1.values := by
    obtain ⟨b, e1, e2⟩ := C95_exact_partial ax1.values hne
    exact e2.1 (Except.ok.inj (e1.symm.trans h2))
  have hbv : p.b ∈ vars := List.mem_of_getElem? (best_some p.best).1
  intro v hv
  have hmem := (sortGo_mem p.sorted).1 v |>.1 (reorderBy_mem p.orderM v hv)
  have hax : v.axes = [ax0, ax1] ∨ List.Forall₂ (AxesMeet env.eq) p.b.axes v.axes ∧ v ∈ vars := by
    rw [List.mem_singleton] at hmem
    rcases hmem with rfl | ⟨h3, _, h4⟩
    · exact .inl h1
    · exact .inr ⟨h4, List.mem_of_mem_eraseIdx h3⟩
  rcases hax with hax | ⟨hax, hvv⟩
  · exact ⟨ax0, ax1, hax, hne, heven⟩
  · rw [h1] at hax
    cases hva : v.axes with
    | nil => rw [hva] at hax; cases hax
    | cons c0 rest =>
      rw [hva] at hax
      obtain ⟨m0, hax⟩ := List.forall₂_cons.1 hax
      cases rest with
      | nil => cases hax
      | cons c1 rest =>
        obtain ⟨m1, hax⟩ := List.forall₂_cons.1 hax
        cases hax
        have e : ax1.values = c1.values :=
          hd _ hbv _ hvv ax1 (by rw [h1]; simp) c1 (by rw [hva]; simp) m1
        exact ⟨c0, c1, rfl, by rw [← e]; exact hne, by rw [← e]; exact heven⟩

end

/-- C95. An axis without values has no first value: `IndexError`. -/
theorem C95_empty {F : Type} (ar : Arith F) : isUniformlySpaced ar [] = .error .index := rfl

/-- C95. With the test of nappy in place, the conversion of every axis with a value gets an answer, as C40 and C67
assume of the test. -/
theorem C95_total {F : Type} (env : XEnv F) (ar : Arith F) :
    (∀ ax, ax.values ≠ [] → ∃ u, (env.withSpacing ar).uniform ax = .ok u) ∧
    ∀ ax, (env.withSpacing ar).uniform ax ≠ .error .hang := by
  have key : ∀ l : List F, l ≠ [] → ∃ u, isUniformlySpaced ar l = .ok u := by
    intro l hl
    obtain ⟨y, t, rfl⟩ := List.exists_cons_of_ne_nil hl
    unfold isUniformlySpaced
    rw [List.head?_cons, List.getLast?_cons]
    exact ⟨_, rfl⟩
  refine ⟨fun ax h => key _ h, fun ax h => ?_⟩
  by_cases hl : ax.values = []
  · have h' : isUniformlySpaced ar ax.values = .error .hang := h
    rw [hl] at h'
    cases h'
  · obtain ⟨u, hu⟩ := key _ hl
    exact nomatch hu.symm.trans h

/-! ### Concrete cases -/

/-- The axis of times 0, 1, 2, 3 with its even spacing, and one that is not evenly spaced. -/
example : isUniformlySpaced (exactArith ℚ) [1, 5 / 2, 4, 11 / 2] = .ok true ∧
    isUniformlySpaced (exactArith ℚ) [0, 1, 3] = .ok false ∧ isUniformlySpaced (exactArith ℚ) [7] = .ok true ∧
    isUniformlySpaced (exactArith ℚ) [3, 3, 3] = .ok true := by decide +kernel

/-- Doubles: also there, axes of whole numbers are recognised. -/
example : isUniformlySpaced doubleArith [0, 1, 2, 3] = .ok true ∧ isUniformlySpaced doubleArith [0, 1, 3] = .ok false := by
  decide +kernel

/-- The double 0.1. -/
example : toDouble (1 / 10) = 3602879701896397 / 36028797018963968 := by decide +kernel

/-- Rational numbers without rounding. -/
def Ex.exactX : XEnv ℚ :=
  { eq := fun x y => decide (x = y), sub := fun x y => x - y, zero := 0, one := 1, isNaN := fun _ => false,
    defaultMiss := -9999, uniform := fun _ => .ok false, ofNat := fun n => n }

/-- One variable on time and a given second axis. -/
def Ex.spaced (l : List ℚ) : List (XVar ℚ) :=
  [{ name := "temp".toList,
     axes := [{ name := "time".toList, attrs := [], encUnits := none, cf := [], values := [0, 1, 5] },
       { name := "height".toList, attrs := [], encUnits := none, cf := [], values := l }],
     data := .lst [], naNumber := none, naAuxNumber := none, miss := none, attrs := [], encUnits := none }]

/-- The hypotheses of `C95_2310_partial` are met by one axis; the other one is refused. -/
example : (∃ a, analyse (Ex.exactX.withSpacing (exactArith ℚ)) (some 2310) (Ex.spaced [1 / 2, 1, 3 / 2]) = .ok (some a) ∧
      a.ffi = 2310 ∧ a.main.length = 1) ∧ AxesApart Ex.exactX.eq (Ex.spaced [1 / 2, 1, 3 / 2]) ∧
    (match analyse (Ex.exactX.withSpacing (exactArith ℚ)) (some 2310) (Ex.spaced [1 / 2, 1, 2]) with
      | .error e => e == .exn
      | _ => false) = true := by
  refine ⟨found_of_eval (P := fun a : Analysis ℚ => a.ffi = 2310 ∧ a.main.length = 1) (by decide +kernel), ?_, by decide +kernel⟩
  intro v hv w hw s hs c hc hm
  have key : ∀ s ∈ (Ex.spaced [1 / 2, 1, 3 / 2]).flatMap XVar.axes,
      ∀ c ∈ (Ex.spaced [1 / 2, 1, 3 / 2]).flatMap XVar.axes, s.name = c.name → s.values = c.values := by
    decide +kernel
  exact key s (List.mem_flatMap.2 ⟨v, hv, hs⟩) c (List.mem_flatMap.2 ⟨w, hw, hc⟩) hm.1.1

/-- C95, negation: with doubles, the axis 0, 0.1, 0.2, 0.3 is not recognised (0.3 / 3 is not the double next to 0.1), so
format 2310 is refused for it. -/
theorem C95_double_fails :
    isUniformlySpaced doubleArith [0, toDouble (1 / 10), toDouble (2 / 10), toDouble (3 / 10)] = .ok false ∧
    EvenlySpaced [(0 : ℚ), 1 / 10, 2 / 10, 3 / 10] := by
  refine ⟨by decide +kernel, 1 / 10, fun i x y hx hy => ?_⟩
  match i with
  | 0 => simp at hx hy; subst hx hy; norm_num
  | 1 => simp at hx hy; subst hx hy; norm_num
  | 2 => simp at hx hy; subst hx hy; norm_num
  | (i + 3) => simp at hy

end Nappy.Props
