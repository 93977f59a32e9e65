import Verif.CollectorLemmas

/-! Properties of the conversion of variables to NASA Ames contents: C40 to C45. -/

namespace Nappy.Props

open Nappy Spec

variable {F : Type}

/-! ### Examples -/

/-- Whole numbers. All axes count as uniformly spaced. -/
def exXEnv : XEnv Int :=
  { eq := fun x y => decide (x = y), sub := fun x y => x - y, zero := 0, one := 1, isNaN := fun _ => false,
    defaultMiss := -9999, uniform := fun _ => .ok true, ofNat := Int.ofNat }

def exAxis (name : String) (values : List Int) : XAxis Int :=
  { name := name.toList, attrs := [], encUnits := none, cf := [], values := values }

def exVar (name : String) (axes : List (XAxis Int)) (num aux : Option Int) : XVar Int :=
  { name := name.toList, axes := axes, data := .lst [], naNumber := num, naAuxNumber := aux, miss := none,
    attrs := [], encUnits := none }

def exTime : XAxis Int := exAxis "time" [0, 1, 2, 3]
def exHeight : XAxis Int := exAxis "height" [10, 20]

/-- Two main variables, one auxiliary variable, one singleton and one that needs another file. -/
def exVars : List (XVar Int) :=
  [exVar "pressure" [exTime] none none, exVar "temp" [exTime, exHeight] (some 2) none,
   exVar "station" [] none none, exVar "wind" [exTime, exHeight] (some 1) none,
   exVar "depth" [exAxis "level" [1, 2, 3]] none none]

/-! ### C40 -/

/-- C40. The loop of `convert` ends: it takes at most as many turns as there are variables left, and more fuel
never changes the outcome. The only assumption is that the test for uniform spacing itself ends. -/
theorem C40_ends (env : XEnv F) (hu : ∀ a, env.uniform a ≠ .error .hang) (requested : Option Int)
    (vars : List (XVar F)) :
    convertLoop (analysePass env requested) vars.length vars ≠ .error .hang ∧
    (∀ n, vars.length ≤ n → convertLoop (analysePass env requested) n vars
      = convertLoop (analysePass env requested) vars.length vars) ∧
    (∀ n r, convertLoop (analysePass env requested) n vars = .ok r → r.length ≤ vars.length) := by
  refine ⟨?_, ?_, ?_⟩
  · refine convertLoop_no_hang _ analysePass_shorter ?_ _ _ (Nat.le_refl _)
    intro l
    exact bind_no_hang (analyse_no_hang env hu requested l) fun _ h => by cases h
  · intro n hn
    exact convertLoop_fuel _ analysePass_shorter n vars vars.length hn (Nat.le_refl _)
  · intro n r h
    exact convertLoop_count _ analysePass_shorter n vars r h

/-- C40 for the whole of `convert`: with as much fuel as variables it does not go on for ever. -/
theorem C40_convert (env : XEnv F) (hu : ∀ a, env.uniform a ≠ .error .hang) (show_ : Tree F → Str)
    (requested : Option Int) (vars : List (XVar F)) :
    convert env show_ requested vars.length vars ≠ .error .hang := by
  unfold convert
  cases h1 : convertSingletonVars show_ vars with
  | error e =>
    intro h
    injection h with h
    subst h
    unfold convertSingletonVars at h1
    obtain ⟨v, _, hv⟩ := mapRes_errC h1
    split at hv
    · cases hb : v.bestName with
      | error e =>
        rw [hb] at hv
        injection hv with hv
        subst hv
        unfold XVar.bestName bestNameOf at hb
        dsimp only at hb
        split at hb <;> cases hb
      | ok n => rw [hb] at hv; cases hv
    · cases hv
  | ok vs =>
    have hlen := mapRes_ok_length _ _ _ h1
    simp only [ok_bind]
    cases h2 : dropCoordinateVars vs with
    | error e =>
      intro h
      injection h with h
      subst h
      unfold dropCoordinateVars at h2
      split at h2 <;> cases h2
    | ok ws =>
      have hws : ws.length ≤ vars.length := by
        unfold dropCoordinateVars at h2
        split at h2
        · cases h2
        · injection h2 with h2
          subst h2
          exact Nat.le_trans (List.length_filter_le _ _) (Nat.le_of_eq hlen)
      simp only [ok_bind]
      cases h3 : analyse env requested ws with
      | error e => intro h; injection h with h; exact analyse_no_hang env hu requested ws (h ▸ h3)
      | ok o =>
        cases o with
        | none => intro h; cases h
        | some a =>
          have hl := analyse_shorter h3
          simp only [ok_bind]
          refine bind_no_hang ?_ fun _ h => by cases h
          rw [(C40_ends env hu requested a.unused).2.1 vars.length (by omega)]
          exact (C40_ends env hu requested a.unused).1

/-- For the witnesses below: a computation that evaluates to a value with a decidable property. -/
theorem found_of_eval {α : Type} {r : Res (Option α)} {P : α → Prop} [DecidablePred P]
    (h : (match r with | .ok (some a) => decide (P a) | _ => false) = true) : ∃ a, r = .ok (some a) ∧ P a := by
  split at h
  · exact ⟨_, rfl, of_decide_eq_true h⟩
  · cases h

/-- The assumption is met, and a conversion may take several turns. -/
example : (∀ a, exXEnv.uniform a ≠ .error .hang) ∧
    ∃ l, convert exXEnv (fun _ => []) none 5 exVars = .ok (some l) ∧ l.length = 2 :=
  ⟨fun a h => (by cases h), found_of_eval (by decide +kernel)⟩

/-! ### C41 -/

/-- C41, in part. If no variable shares the name of a singleton, no one-dimensional variable lives on a regular
subset of another axis, and the stored numbers fit, then every variable that is not a coordinate is in exactly
one of the output files, once, as main, auxiliary or singleton variable. What is missing: without these
assumptions variables are lost, see `C41_subset_lost`, `C41_name_lost` and `C41_number_lost`. -/
theorem C41_partial (env : XEnv F) (show_ : Tree F → Str) (requested : Option Int) (n : Nat)
    (vars ws : List (XVar F)) (passes : List (Analysis F))
    (h1 : convertSingletonVars show_ vars = .ok ws)
    (h : convert env show_ requested n vars = .ok (some passes))
    (hn : NamesApart ws) (hs : NoSubsets env.eq ws) (hm : NumbersFit XVar.naNumber ws)
    (hx : NumbersFit XVar.naAuxNumber ws) :
    (passes.flatMap taken).Perm
      (ws.filter (fun v => ∀ w ∈ ws, v.name ∉ w.axes.map XAxis.name)) := by
  unfold convert at h
  rw [h1] at h
  simp only [ok_bind] at h
  obtain ⟨us, h2, h3⟩ := ok_of_bind h
  have hus : us = ws.filter (fun v => ∀ w ∈ ws, v.name ∉ w.axes.map XAxis.name) := by
    unfold dropCoordinateVars at h2
    split at h2
    · cases h2
    · injection h2 with h2
      rw [← h2]
      refine List.filter_congr fun v _ => ?_
      rw [Bool.eq_iff_iff]
      simp only [Bool.not_eq_true', decide_eq_true_eq]
      rw [← Bool.not_eq_true, List.contains_iff_mem, List.mem_flatMap]
      constructor
      · intro hc w hw hmem; exact hc ⟨w, hw, hmem⟩
      · rintro hc ⟨w, hw, hmem⟩; exact hc w hw hmem
  have hsub : us.Sublist ws := by rw [hus]; exact List.filter_sublist
  rw [← hus]
  obtain ⟨o, h4, h5⟩ := ok_of_bind h3
  cases o with
  | none => injection h5 with h5; cases h5
  | some a =>
    obtain ⟨rest, h6, h7⟩ := ok_of_bind h5
    injection h7 with h7
    injection h7 with h7
    subst h7
    have n1 := numbersFit_sub hm hsub
    have n2 := numbersFit_sub hx hsub
    have s1 : NoSubsets env.eq us := fun x hx w hw => hs x (hsub.subset hx) w (hsub.subset hw)
    obtain ⟨c1, c2, c3, _⟩ := analyse_account h4
      (fun x hx w hw => hn x (hsub.subset hx) w (hsub.subset hw)) s1 n1 n2
    have := convertLoop_account n a.unused rest h6 c3
      (fun x hx w hw => s1 x (c2.subset hx) w (c2.subset hw)) (numbersFit_sub n1 c2) (numbersFit_sub n2 c2)
    simp only [List.flatMap_cons, taken]
    exact (this.append_left _).trans c1

/-- The hypotheses are met by the example. -/
example : NamesApart exVars ∧ NoSubsets exXEnv.eq exVars ∧ NumbersFit XVar.naNumber exVars ∧
    NumbersFit XVar.naAuxNumber exVars := by
  refine ⟨?_, ?_, ⟨?_, ?_⟩, ⟨?_, ?_⟩⟩
  · intro v hv w hw
    simp only [exVars, List.mem_cons, List.not_mem_nil, or_false] at hv hw
    rcases hv with rfl | rfl | rfl | rfl | rfl <;> rcases hw with rfl | rfl | rfl | rfl | rfl <;>
      simp [exVar]
  · intro v hv w hw a b more ha hb
    simp only [exVars, List.mem_cons, List.not_mem_nil, or_false] at hv hw
    rcases hv with rfl | rfl | rfl | rfl | rfl <;> simp only [exVar, List.cons.injEq, and_true, reduceCtorEq,
      and_false] at ha <;> subst ha <;> rcases hw with rfl | rfl | rfl | rfl | rfl <;>
      simp only [exVar, List.cons.injEq, reduceCtorEq] at hb <;> (obtain ⟨rfl, _⟩ := hb; decide)
  · intro v hv i hi
    simp only [exVars, List.mem_cons, List.not_mem_nil, or_false] at hv
    rcases hv with rfl | rfl | rfl | rfl | rfl <;> simp only [exVar, reduceCtorEq, Option.some.injEq] at hi <;>
      omega
  · simp [exVars, exVar]
  · intro v hv i hi
    simp only [exVars, List.mem_cons, List.not_mem_nil, or_false] at hv
    rcases hv with rfl | rfl | rfl | rfl | rfl <;> simp only [exVar, reduceCtorEq] at hi
  · simp [exVars, exVar]

/-- C41 fails: a variable on every second point of the time axis is in no list, without an error. -/
theorem C41_subset_lost :
    ∃ a, analyse exXEnv none [exVar "temp" [exTime] none none,
        exVar "sparse" [exAxis "time" [0, 2]] none none] = .ok (some a) ∧
      (a.main ++ a.aux ++ a.zero ++ a.unused).map XVar.name = ["temp".toList] :=
  found_of_eval (by decide +kernel)

/-- C41 fails: a variable with the name of a singleton is in no list. -/
theorem C41_name_lost :
    ∃ a, analyse exXEnv none [exVar "temp" [exTime] none none, exVar "height" [] none none,
        exVar "height" [exAxis "level" [1, 2, 3]] none none] = .ok (some a) ∧
      (a.main ++ a.aux ++ a.zero ++ a.unused).map (fun v => (v.name, v.rank))
        = [("temp".toList, 1), ("height".toList, 0)] :=
  found_of_eval (by decide +kernel)

/-- C41 fails: of two variables with the same stored number (variables of two files, say) only the last one is
kept. -/
theorem C41_number_lost :
    ∃ a, analyse exXEnv none [exVar "temp" [exTime] (some 0) none, exVar "wind" [exTime] (some 0) none]
        = .ok (some a) ∧
      (a.main ++ a.aux ++ a.zero ++ a.unused).map XVar.name = ["wind".toList] :=
  found_of_eval (by decide +kernel)

/-- What is never lost: the variable with the most axes (the largest of them) starts the file, and every
variable is in one of the lists unless it shares its name with a singleton or is one-dimensional on a regular
subset of the first axis. Stored numbers must fit. -/
theorem C41_reasons (env : XEnv F) (requested : Option Int) (vars : List (XVar F)) (a : Analysis F)
    (h : analyse env requested vars = .ok (some a)) (hm : NumbersFit XVar.naNumber vars)
    (hx : NumbersFit XVar.naAuxNumber vars) :
    ∀ v ∈ vars, v ∈ a.main ++ a.aux ++ a.zero ++ a.unused ∨
      (∃ z ∈ vars, z.axes = [] ∧ z.name = v.name) ∨
      ∃ c ax0 more n, v.axes = [c] ∧ (∃ w ∈ a.main, w.axes = ax0 :: more) ∧
        subsetFactor env.eq c ax0 = .ok (some (n + 1)) := by
  obtain ⟨p⟩ := analyse_parts h
  obtain ⟨hb1, hb2, _⟩ := best_some p.best
  have hperm := perm_eraseIdx hb1
  have hsubE : (vars.eraseIdx p.i).Sublist vars := List.eraseIdx_sublist _ _
  obtain ⟨lost, l1, l2, l3⟩ := sortGo_perm hb2 p.sorted
  have fitM : NumbersFit XVar.naNumber p.s.main := by
    rw [p.main]; exact numbersFit_sub (numbersFit_perm hm hperm) (p.subM.cons_cons _)
  have fitX : NumbersFit XVar.naAuxNumber p.s.aux := by
    rw [p.aux]; exact numbersFit_sub hx (p.subX.trans hsubE)
  obtain ⟨r1, q1, _, _, _, _, pm⟩ := reorderBy_ok _ _ fitM
  obtain ⟨r2, q3, _, _, _, _, px⟩ := reorderBy_ok _ _ fitX
  rw [p.orderM] at q1; injection q1 with q1; subst q1
  rw [p.orderX] at q3; injection q3 with q3; subst q3
  intro v hv
  have hv' : v ∈ p.s.main ++ p.s.aux ++ p.s.unused ++ lost := by
    refine l3.mem_iff.1 ?_
    simp only [List.append_nil, List.singleton_append]
    exact hperm.mem_iff.1 hv
  rcases List.mem_append.1 hv' with hv' | hv'
  · left
    rcases List.mem_append.1 hv' with hv' | hv'
    · rcases List.mem_append.1 hv' with hv' | hv'
      · simp [pm.mem_iff.2 hv']
      · simp [px.mem_iff.2 hv']
    · rw [p.unused]; simp [hv']
  · right
    rcases l2 v hv' with hz | ⟨c, ax0, more, n, e1, e2, _, e4⟩
    · left
      obtain ⟨w, hw, e⟩ := List.mem_map.1 hz
      obtain ⟨hw1, hw2⟩ := List.mem_filter.1 hw
      exact ⟨w, hw1, List.eq_nil_of_length_eq_zero (by simpa [XVar.rank] using hw2), e⟩
    · right
      exact ⟨c, ax0, more, n, e1, ⟨p.b, pm.mem_iff.2 (by rw [p.main]; simp), e2⟩, e4⟩

/-! ### C42 -/

/-- C42, in part. If the stored numbers are different and between 0 and 999, the variables come out in the order
of their numbers, followed by the unnumbered ones in the given order, and none is lost. What is missing: the
same for all numbers, see `C42_duplicate_lost`, `C42_large_raises` and `C42_negative_last`. -/
theorem C42_partial {α : Type} (num : α → Option Int) (vars : List α) (h : NumbersFit num vars) :
    ∃ r, reorderBy num vars = .ok r ∧ InStoredOrder num vars r := reorderBy_ok num vars h

/-- The hypothesis is met, and the order does change. -/
example : NumbersFit (fun p : Nat × Option Int => p.2) [(10, none), (11, some 5), (12, some 2), (13, none)] ∧
    reorderBy (fun p : Nat × Option Int => p.2) [(10, none), (11, some 5), (12, some 2), (13, none)]
      = .ok [(12, some 2), (11, some 5), (10, none), (13, none)] := by
  refine ⟨⟨?_, by simp⟩, by decide +kernel⟩
  intro v hv i hi
  simp only [List.mem_cons, List.not_mem_nil, or_false] at hv
  rcases hv with rfl | rfl | rfl | rfl <;> simp only [reduceCtorEq, Option.some.injEq] at hi <;> omega

/-- C42 fails: the earlier one of two variables with the same number is lost. -/
theorem C42_duplicate_lost :
    reorderBy (fun p : Nat × Option Int => p.2) [(10, some 5), (11, some 5)] = .ok [(11, some 5)] := by
  decide +kernel

/-- C42 fails: a number above 999 raises. -/
theorem C42_large_raises :
    reorderBy (fun p : Nat × Option Int => p.2) [(10, some 1000)] = .error .index := by decide +kernel

/-- C42 fails: a negative number counts from the end, so it comes after the others. -/
theorem C42_negative_last :
    reorderBy (fun p : Nat × Option Int => p.2) [(10, some (-1)), (11, some 5)]
      = .ok [(11, some 5), (10, some (-1))] := by decide +kernel

/-! ### C43 -/

/-- C43. A request is met or raises: the format chosen is the one requested. -/
theorem C43_request (r : Int) (hr : r ≠ 0) (dims naux : Nat) (ffis : Option (List Int)) (f : Int)
    (h : decideFFI (some r) dims naux ffis = .ok f) : f = r := by
  have hf : (some r).filter (· != 0) = some r := by simp [Option.filter, hr]
  unfold decideFFI at h
  rw [hf] at h
  cases ffis with
  | some l =>
    dsimp only at h
    split at h
    · injection h with h; exact h.symm
    · cases h
  | none =>
    dsimp only at h
    obtain ⟨g, h1, h2⟩ := ok_of_bind h
    split at h2
    · rename_i he
      injection h2 with h2
      rw [← h2]; exact he
    · cases h2

/-- C43, in part. The format chosen has as many independent variables as the data have axes, as long as no
variable lives on a regular subset of the first axis, or the data have one axis. What is missing: see
`C43_fails`. -/
theorem C43_dims_partial (env : XEnv F) (requested : Option Int) (vars : List (XVar F)) (a : Analysis F)
    (h : analyse env requested vars = .ok (some a)) (hv : a.nvpm = none ∨ a.niv = 1) :
    formatDims a.ffi = a.niv ∧ ∃ v ∈ vars, v.rank = a.niv ∧ ∀ w ∈ vars, w.rank ≤ a.niv := by
  obtain ⟨p⟩ := analyse_parts h
  obtain ⟨hb1, hb2, hb3⟩ := best_some p.best
  refine ⟨?_, p.b, List.mem_of_getElem? hb1, p.niv.symm, ?_⟩
  · rw [p.niv]
    refine decide_dims p.decided (by omega) ?_
    have := sortGo_ffis p.sorted (p := fun l => ∀ f ∈ l, formatDims f = p.b.rank)
      (ffis_dims p.first)
    intro l hl f hf
    rcases this with ⟨e1, _⟩ | ⟨e1, n, e2⟩
    · exact e1 l hl f hf
    · rw [p.nvpm, e2, p.niv] at hv
      rcases hv with hv | hv
      · cases hv
      · rw [e1] at hl
        injection hl with hl
        subst hl
        rw [List.mem_singleton.1 hf, hv]; rfl
  · intro w hw
    rw [p.niv]
    by_cases h0 : w.rank = 0
    · omega
    · have := hb3 w hw h0
      unfold Beats at this
      omega

/-- What formats the collected data can be written to, when no regular subset is involved. -/
def PossibleFFI (dims naux : Nat) (uniform : Bool) (r : Int) : Prop :=
  (dims = 1 ∧ naux = 0 ∧ r = 1001) ∨ (dims = 1 ∧ 0 < naux ∧ r = 1010) ∨
  (dims = 2 ∧ (r = 2010 ∨ r = 2110 ∨ (r = 2310 ∧ uniform = true))) ∨ (dims = 3 ∧ r = 3010) ∨
  (dims = 4 ∧ r = 4010)

/-- C43. A request is met exactly if it is possible. (`ffis` as `_analyseVariables` sets it.) -/
theorem C43_possible (dims naux : Nat) (hd : 0 < dims) (uniform : Bool) (r : Int) (hr : r ≠ 0) :
    decideFFI (some r) dims naux
        (if dims = 2 then some (if uniform then [2010, 2110, 2310] else [2010, 2110]) else none) = .ok r ↔
      PossibleFFI dims naux uniform r := by
  have hf : (some r).filter (· != 0) = some r := by simp [Option.filter, hr]
  unfold decideFFI PossibleFFI
  rw [hf]
  by_cases h2 : dims = 2
  · subst h2
    cases uniform <;> simp <;> omega
  · rw [if_neg h2]
    dsimp only
    have h1 : dims = 1 ∨ dims = 3 ∨ dims = 4 ∨ 4 < dims := by omega
    rcases h1 with rfl | rfl | rfl | h4
    · rcases Nat.eq_zero_or_pos naux with rfl | hn
      · simp [ffiForDims]
        constructor
        · intro h; split at h
          · rename_i e; exact e.symm
          · cases h
        · rintro rfl; rfl
      · have hn0 : naux ≠ 0 := by omega
        simp [ffiForDims, hn, hn0]
        constructor
        · intro h; split at h
          · rename_i e; exact e.symm
          · cases h
        · rintro rfl; rfl
    · simp [ffiForDims]
      constructor
      · intro h; split at h
        · rename_i e; exact e.symm
        · cases h
      · rintro rfl; rfl
    · simp [ffiForDims]
      constructor
      · intro h; split at h
        · rename_i e; exact e.symm
        · cases h
      · rintro rfl; rfl
    · simp [ffiForDims, h4]
      omega

example : PossibleFFI 2 0 true 2310 ∧ ¬ PossibleFFI 2 0 false 2310 := by simp [PossibleFFI]

/-- C43 fails: with a variable on a regular subset of the first axis, format 1020 (one independent variable) is
chosen for data with two axes. -/
theorem C43_fails :
    ∃ a, analyse exXEnv (some 1020) [exVar "temp" [exTime, exHeight] none none,
        exVar "sparse" [exAxis "time" [0, 2]] none none] = .ok (some a) ∧ a.ffi = 1020 ∧ a.niv = 2 :=
  found_of_eval (by decide +kernel)

/-- C43 fails: for the same data the request for 2010, which the data fit, is refused. -/
theorem C43_possible_refused :
    analyse exXEnv (some 2010) [exVar "temp" [exTime, exHeight] none none,
        exVar "sparse" [exAxis "time" [0, 2]] none none] = .error .exn := rfl

/-! ### C44 -/

/-- C44, in part. Axes judged identical have the same name, units and cf identity, the same number of values, and
agree at one position at least; and this is all that is checked. What is missing: the other positions, see
`C44_fails`. -/
theorem C44_exact_partial (eq : F → F → Bool) (a b : XAxis F) :
    areAxesIdentical eq a b = true ↔
      SameIdentity a b ∧ a.values.length = b.values.length ∧
        ∃ (i : Nat) (x y : F), a.values[i]? = some x ∧ b.values[i]? = some y ∧ eq x y = true :=
  areAxesIdentical_iff eq a b

/-- C44 holds for axes with one value. -/
theorem C44_single (eq : F → F → Bool) (a b : XAxis F) (h1 : a.values.length = 1)
    (h : areAxesIdentical eq a b = true) : SameIdentity a b ∧ SameValues eq a.values b.values := by
  obtain ⟨h2, h3, i, x, y, hx, hy, he⟩ := (areAxesIdentical_iff eq a b).1 h
  refine ⟨h2, h3, ?_⟩
  intro j x' y' hx' hy'
  have hi : i = 0 := by
    have := (List.getElem?_eq_some_iff.1 hx).1; omega
  have hj : j = 0 := by
    have := (List.getElem?_eq_some_iff.1 hx').1; omega
  subst hi hj
  rw [hx] at hx'; rw [hy] at hy'
  injection hx' with hx'; injection hy' with hy'
  subst hx' hy'
  exact he

/-- C44, the other way round: axes with the same identity and the same values are judged identical, unless they
are empty. -/
theorem C44_complete (eq : F → F → Bool) (a b : XAxis F) (h1 : SameIdentity a b)
    (h2 : SameValues eq a.values b.values) (hne : a.values ≠ []) : areAxesIdentical eq a b = true := by
  refine (areAxesIdentical_iff eq a b).2 ⟨h1, h2.1, 0, ?_⟩
  cases ha : a.values with
  | nil => exact absurd ha hne
  | cons x xs =>
    cases hb : b.values with
    | nil => have := h2.1; rw [ha, hb] at this; simp at this
    | cons y ys => exact ⟨x, y, rfl, rfl, h2.2 0 x y (by rw [ha]; rfl) (by rw [hb]; rfl)⟩

/-- C44 fails: axes with different values are judged identical, because one value is in common. -/
theorem C44_fails :
    areAxesIdentical exXEnv.eq (exAxis "time" [1, 2, 3]) (exAxis "time" [1, 5, 9]) = true ∧
      ¬ SameValues exXEnv.eq [1, 2, 3] [1, 5, 9] := by
  refine ⟨by decide, ?_⟩
  rintro ⟨_, h⟩
  exact absurd (h 1 2 5 rfl rfl) (by decide)

/-- As a result the data of two variables on different times are written against the times of the first. -/
theorem C44_mixed :
    ∃ a, analyse exXEnv none [exVar "a" [exAxis "time" [1, 2, 3]] none none,
        exVar "b" [exAxis "time" [1, 5, 9]] none none] = .ok (some a) ∧
      a.main.map XVar.name = ["a".toList, "b".toList] :=
  found_of_eval (by decide +kernel)

example : SameIdentity exTime exTime ∧ SameValues exXEnv.eq exTime.values exTime.values ∧
    exTime.values ≠ [] := by
  refine ⟨⟨rfl, rfl, ?_⟩, ⟨rfl, ?_⟩, by decide⟩
  · intro t _ x y h; cases h
  · intro i x y hx hy
    rw [hx] at hy; injection hy with hy; subst hy
    simp [exXEnv]

/-! ### C45 -/

/-- C45. For axes that are not empty the test never raises, and it gives `n` exactly if the units and cf identity
agree and the first axis consists of every `n`-th value of the second. -/
theorem C45_subset (eq : F → F → Bool) (a b : XAxis F) (ha : a.values ≠ []) (hb : b.values ≠ []) :
    ∃ r, subsetFactor eq a b = .ok r ∧
      ∀ n, r = some n ↔ axesCompatible false a b = true ∧ EveryNth eq n a.values b.values :=
  subsetFactor_ok eq a b ha hb

/-- C45. A factor that is reported is never zero. -/
theorem C45_positive (eq : F → F → Bool) (a b : XAxis F) (hb : b.values ≠ []) (n : Nat)
    (h : subsetFactor eq a b = .ok (some n)) : 0 < n := by
  by_cases ha : a.values = []
  · unfold subsetFactor at h
    split at h
    · cases h
    · rw [ha] at h; cases h
  · obtain ⟨r, h1, h2⟩ := subsetFactor_ok eq a b ha hb
    rw [h1] at h
    injection h with h
    obtain ⟨_, hl, _⟩ := (h2 n).1 h
    rcases Nat.eq_zero_or_pos n with rfl | hn
    · rw [Nat.zero_mul] at hl
      exact absurd (List.eq_nil_of_length_eq_zero hl) hb
    · exact hn

/-- An empty axis raises `ZeroDivisionError`. -/
theorem C45_empty (eq : F → F → Bool) (a b : XAxis F) (hc : axesCompatible false a b = true)
    (ha : a.values = []) : subsetFactor eq a b = .error .zeroDiv := by
  unfold subsetFactor
  rw [hc, ha]; rfl

example : subsetFactor exXEnv.eq (exAxis "time" [0, 2]) exTime = .ok (some 2) := rfl

end Nappy.Props
