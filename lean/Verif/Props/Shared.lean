import Verif.SharedLemmas
import Verif.Props.NcBack

/-!
Property C92: which variables of a NetCDF file are put into one NASA Ames file.

`analyse` is one pass of the collector, `convert` all of them. In the result `a`, `a.main` and `a.aux` are the main and
auxiliary variables of the file.
-/

namespace Nappy.Props

open Nappy Spec

variable {F : Type}

/-- C92, what holds: there is one variable, `b`, such that the main variables of a file are `b` and those variables
whose axes meet the axes of `b` one by one, and the auxiliary variables have a single axis that meets the first one of
`b`. None of them has the name of a variable without axes. What is missing: axes that meet need not be the same, see
`C92_fails`. -/
theorem C92_together_partial {env : XEnv F} {requested : Option Int} {vars : List (XVar F)} {a : Analysis F}
    (h : analyse env requested vars = .ok (some a)) :
    ∃ b ∈ vars, b.axes ≠ [] ∧
      (∀ v ∈ a.main, v ∈ vars ∧
        (v = b ∨ (¬ NamedLikeSingleton vars v ∧ List.Forall₂ (AxesMeet env.eq) b.axes v.axes))) ∧
      (∀ v ∈ a.aux, v ∈ vars ∧ ¬ NamedLikeSingleton vars v ∧ v.shape ≠ b.shape ∧
        ∃ c ax0 more, v.axes = [c] ∧ b.axes = ax0 :: more ∧ AxesMeet env.eq ax0 c) := by
  obtain ⟨b, h1, h2, h3, h4, _⟩ := analyse_mem h
  exact ⟨b, h1, h2, h3, h4⟩

/-- C92. The other direction: every variable that fits is taken, unless stored numbers collide (C42). -/
theorem C92_exact {env : XEnv F} {requested : Option Int} {vars : List (XVar F)} {a : Analysis F}
    (h : analyse env requested vars = .ok (some a)) (hn : NumbersFit XVar.naNumber vars) :
    ∃ b ∈ a.main, ∀ v ∈ vars, v ∈ a.main ↔
      v = b ∨ (¬ NamedLikeSingleton vars v ∧ List.Forall₂ (AxesMeet env.eq) b.axes v.axes) := by
  obtain ⟨b, h1, _, h3, _, h5⟩ := analyse_mem h
  exact ⟨b, h5 hn b h1 (.inl rfl), fun v hv => ⟨fun hm => (h3 v hm).2, h5 hn v hv⟩⟩

/-- C92. If axes that have a value in common have all values in common, all main variables of a file have the same
axes: the same names, units and values in the same order. The auxiliary variables have the first of them. -/
theorem C92_same {env : XEnv F} {requested : Option Int} {vars : List (XVar F)} {a : Analysis F}
    (h : analyse env requested vars = .ok (some a)) (hd : AxesApart env.eq vars) :
    (∀ v ∈ a.main, ∀ w ∈ a.main, v.axes.map axisFace = w.axes.map axisFace) ∧
    (∀ v ∈ a.aux, ∀ w ∈ a.main, v.axes.map axisFace = (w.axes.map axisFace).take 1) := by
  obtain ⟨b, h1, h2, h3, h4, _⟩ := analyse_mem h
  have key : ∀ v ∈ a.main, v.axes.map axisFace = b.axes.map axisFace := by
    intro v hv
    obtain ⟨g1, rfl | ⟨_, g2⟩⟩ := h3 v hv
    · rfl
    · exact face_of_meet hd h1 g1 g2
  refine ⟨fun v hv w hw => by rw [key v hv, key w hw], fun v hv w hw => ?_⟩
  obtain ⟨g1, _, _, c, ax0, more, e1, e2, e3⟩ := h4 v hv
  have e := hd b h1 v g1 ax0 (by rw [e2]; simp) c (by rw [e1]; simp) e3
  rw [key w hw, e1, e2]
  simp only [List.map_cons, List.map_nil, List.take_succ_cons, List.take_zero, axisFace, e, e3.1.1, e3.1.2.1]

/-- C92 for all files of a conversion. `ws` are the variables, those without axes under their best names. -/
theorem C92_run {env : XEnv F} {show_ : Tree F → Str} {requested : Option Int} {fuel : Nat}
    {vars ws : List (XVar F)} {passes : List (Analysis F)} (h1 : convertSingletonVars show_ vars = .ok ws)
    (h : convert env show_ requested fuel vars = .ok (some passes)) (hd : AxesApart env.eq ws) :
    ∀ a ∈ passes, (∀ v ∈ a.main, ∀ w ∈ a.main, v.axes.map axisFace = w.axes.map axisFace) ∧
      (∀ v ∈ a.aux, ∀ w ∈ a.main, v.axes.map axisFace = (w.axes.map axisFace).take 1) := by
  intro a ha
  obtain ⟨vars', g1, g2⟩ := convert_passes h1 h a ha
  exact C92_same g2 fun v hv w hw => hd v (g1.subset hv) w (g1.subset hw)

section
variable {x : XEnv F} {q : F → F} {a : Analysis F} {d : Dict (PyVal F)} {o : Obj F} {env : ToXEnv F}
  {user : Dict (PyVal F)} {auxSel : Selection} {tu : Option Str} {r : ToXResult F} {requested : Option Int}
  {vars : List (XVar F)}

theorem values_of_face {v w : XVar F} (h : v.axes.map axisFace = w.axes.map axisFace) :
    v.axes.map XAxis.values = w.axes.map XAxis.values := by
  have := congrArg (List.map fun p : Str × Option Str × List F => p.2.2) h
  simpa only [List.map_map, Function.comp_def, axisFace] using this

/-- C92 and C88: after the way to a 1001 file and back to NetCDF each variable has the values of its own first axis
again, as far as the number format keeps them. -/
theorem C92_back_1001 (hh : Holds x q a d o) (hf : a.ffi = 1001) (ha : analyse x requested vars = .ok (some a))
    (hd : AxesApart x.eq vars) (h : toXarray env user .all auxSel tu o = .ok r) :
    ∀ w ∈ a.main, ∀ v ∈ r.vars, ∃ ax, w.axes.head? = some ax ∧ v.axes.map XAxis.values = [ax.values.map q] := by
  intro w hw v hv
  obtain ⟨w0, ax0, e1, e2, e3⟩ := C88_axis hh hf h
  have hw0 : w0 ∈ a.main := List.mem_of_mem_head? (by rw [e1]; rfl)
  have e := values_of_face ((C92_same ha hd).1 w hw w0 hw0)
  rw [e3 v hv]
  cases e4 : w.axes with
  | nil =>
    rw [e4] at e
    have : w0.axes = [] := by simpa using e.symm
    rw [this] at e2; cases e2
  | cons ax more =>
    cases e5 : w0.axes with
    | nil => rw [e5] at e2; cases e2
    | cons ax0' more' =>
      rw [e5] at e2
      injection e2 with e2
      subst e2
      rw [e4, e5] at e
      injection e with e
      exact ⟨ax, rfl, by rw [e]⟩

/-- C92 and C88 for 2010, 3010 and 4010, with exact steps and values that the number format keeps: each variable has
its own axes again. -/
theorem C92_back_2010 (hh : Holds x q a d o) (hf : a.ffi = 2010 ∨ a.ffi = 3010 ∨ a.ffi = 4010)
    (ha : analyse x requested vars = .ok (some a)) (hd : AxesApart x.eq vars) (hx : ExactSteps x env.add)
    (hq : ∀ w ∈ a.main, ∀ ax ∈ w.axes, ∀ y ∈ ax.values, q y = y) (h : toXarray env user .all auxSel tu o = .ok r) :
    ∀ w ∈ a.main, ∀ v ∈ r.vars, v.axes.map XAxis.values = w.axes.map XAxis.values := by
  intro w hw v hv
  obtain ⟨w0, e1, e2⟩ := C88_axes_partial hh hf hx hq h
  have hw0 : w0 ∈ a.main := List.mem_of_mem_head? (by rw [e1]; rfl)
  rw [e2 v hv, values_of_face ((C92_same ha hd).1 w hw w0 hw0)]

end

/-! ### Concrete cases -/

/-- The hypotheses are met: of two variables on time and height, one on time and one on levels, the first three share
a file. -/
example : ∃ a, analyse exXEnv none exVars = .ok (some a) ∧
    a.main.map XVar.name = ["wind".toList, "temp".toList] ∧ a.aux.map XVar.name = ["pressure".toList] ∧
    AxesApart exXEnv.eq exVars := by
  obtain ⟨a, h1, h2⟩ := found_of_eval (r := analyse exXEnv none exVars)
    (P := fun a => a.main.map XVar.name = ["wind".toList, "temp".toList] ∧
      a.aux.map XVar.name = ["pressure".toList]) (by decide +kernel)
  refine ⟨a, h1, h2.1, h2.2, ?_⟩
  intro v hv w hw s hs c hc hm
  have hn := hm.1.1
  have key : ∀ s ∈ exVars.flatMap XVar.axes, ∀ c ∈ exVars.flatMap XVar.axes, s.name = c.name → s.values = c.values := by
    decide +kernel
  exact key s (List.mem_flatMap.2 ⟨v, hv, hs⟩) c (List.mem_flatMap.2 ⟨w, hw, hc⟩) hn

/-- C92, negation: a variable on other times is written against the times of the first one. -/
theorem C92_fails :
    ∃ a, analyse exXEnv none [exVar "a" [exAxis "time" [1, 2, 3]] none none,
        exVar "b" [exAxis "time" [1, 5, 9]] none none] = .ok (some a) ∧
      a.main.map (fun v => v.axes.map XAxis.values) = [[[1, 2, 3]], [[1, 5, 9]]] :=
  found_of_eval (by decide +kernel)

end Nappy.Props
