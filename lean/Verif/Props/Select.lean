import Verif.SelectLemmas
import Verif.Props.ConvertFile

/-! Properties of the choice of variables in a conversion from NetCDF: C76. -/

namespace Nappy.Props

open Nappy Spec

variable {F : Type}

theorem singleValue_used (v : XVar F) : UsedAs v (singleValue v) ∧ (singleValue v).name = v.name ∧
    (singleValue v).attrs = v.attrs := by
  unfold singleValue
  split
  · rename_i h
    have hax : v.axes = [] := by simpa [XVar.rank] using h
    exact ⟨⟨fun h => absurd hax h, fun _ => ⟨hax, rfl⟩⟩, rfl, rfl⟩
  · rename_i h
    have hax : v.axes ≠ [] := by simpa [XVar.rank] using h
    exact ⟨⟨fun _ => rfl, fun h => absurd h hax⟩, rfl, rfl⟩

theorem usedAs_trans {u v w : XVar F} (h1 : UsedAs u v) (h2 : UsedAs v w) : UsedAs u w := by
  refine ⟨fun h => ?_, fun h => ?_⟩
  · have e := h1.1 h
    subst e
    exact h2.1 h
  · have e := h1.2 h
    have e2 := h2.2 e.1
    exact ⟨e2.1, e2.2.trans e.2⟩

open Classical in
/-- C76. The variables handed to the conversion are the ones asked for, all of them, in the order of the file, with
their names and attributes. -/
theorem C76_read (nc : NCFile F) (ids : Option (List Str)) (ex : List Str) :
    ∃ asked, asked = nc.vars.filter (fun v => decide (Asked nc ids ex v)) ∧
      (readXarrayFile nc.vars ids ex).length = asked.length ∧
      ∀ (i : Nat) v w, asked[i]? = some v → (readXarrayFile nc.vars ids ex)[i]? = some w →
        UsedAs v w ∧ w.name = v.name ∧ w.attrs = v.attrs := by
  refine ⟨_, rfl, ?_⟩
  have : nc.vars.filter (takesVar nc.vars ids ex) = nc.vars.filter (fun v => decide (Asked nc ids ex v)) := by
    refine List.filter_congr fun v hv => ?_
    rw [Bool.eq_iff_iff, takesVar_iff nc ids ex v hv, decide_eq_true_eq]
  unfold readXarrayFile
  rw [this]
  refine ⟨by simp, fun i v w hv hw => ?_⟩
  rw [List.getElem?_map, hv, Option.map_some, Option.some.injEq] at hw
  rw [← hw]
  exact singleValue_used v

theorem readXarray_mem {nc : NCFile F} {ids : Option (List Str)} {ex : List Str} {w : XVar F}
    (h : w ∈ readXarrayFile nc.vars ids ex) : ∃ v, Asked nc ids ex v ∧ w = singleValue v := by
  unfold readXarrayFile at h
  obtain ⟨v, hv, e⟩ := List.mem_map.1 h
  obtain ⟨h1, h2⟩ := List.mem_filter.1 hv
  exact ⟨v, (takesVar_iff nc ids ex v h1).1 h2, e.symm⟩

/-- C76. Whatever the selection, every variable that gets into an output file, as main, auxiliary or singleton
variable, was asked for. -/
theorem C76_only (env : XEnv F) (show_ : Tree F → Str) (requested : Option Int) (n : Nat) (nc : NCFile F)
    (ids : Option (List Str)) (ex : List Str) (passes : List (Analysis F))
    (h : convert env show_ requested n (readXarrayFile nc.vars ids ex) = .ok (some passes)) :
    ∀ p ∈ passes, ∀ w ∈ taken p, ∃ v, Asked nc ids ex v ∧ UsedAs v w := by
  intro p hp w hw
  obtain ⟨u, hu, h1⟩ := convert_from h p hp w hw
  obtain ⟨v, hv, e⟩ := readXarray_mem hu
  subst e
  exact ⟨v, hv, usedAs_trans (singleValue_used v).1 h1⟩

/-- C76. The dictionaries that are written hold the values of variables that were asked for, under their names, and
nothing else; the auxiliary variables begin with up to three made from the axes if there are two axes. -/
theorem C76_written (env : ApiEnv F) (args : NCToNAArgs F) (nc : NCFile F) (ds : List (Dict (PyVal F)))
    (hnc : env.openNC args.ncFile = .ok nc) (h : ncDicts env args = .ok ds) :
    ∀ d ∈ ds, ∃ main aux names pre,
      (∀ v ∈ main ++ aux, Asked nc args.varIds args.excludeVars v) ∧ main ≠ [] ∧
      dictGet? d "V" = some (.list (main.map (fun v => pyTree (written env.collect.x v)))) ∧
      mapRes XVar.bestName main = .ok names ∧ dictGet? d "VNAME" = some (pyStrs names) ∧
      dictGet? d "A" = some (.list (pre ++ aux.map (fun v => pyTree (written env.collect.x v)))) ∧
      pre.length ≤ 3 ∧ (pre ≠ [] → ∀ v ∈ main, v.axes.length = 2) := by
  intro d hd
  unfold ncDicts at h
  rw [hnc] at h
  simp only [ok_bind] at h
  obtain ⟨o, h1, h⟩ := ok_of_bind h
  unfold convertDicts at h1
  obtain ⟨passes, h2, h1⟩ := ok_of_bind h1
  cases passes with
  | none =>
    rw [← Except.ok.inj h1] at h
    rw [← Except.ok.inj h] at hd
    cases hd
  | some passes =>
    obtain ⟨ds', h3, h1⟩ := ok_of_bind h1
    rw [← Except.ok.inj h1] at h
    have e : ds' = ds := Except.ok.inj h
    subst e
    obtain ⟨a, ha, hc⟩ := mapRes_mem h3 hd
    obtain ⟨vars', hv'⟩ := convert_analysed h2 a ha
    obtain ⟨p⟩ := collectDict_parts hc
    obtain ⟨m1, m2, m3⟩ := analyse_from hv'
    obtain ⟨v1, v2, _⟩ := p.vars_ok
    have hone := C76_only _ _ _ _ nc args.varIds args.excludeVars passes h2 a ha
    refine ⟨a.main, a.aux, p.s.vars.map VarItem.name, p.s.ind.aux.map VarItem.data, ?_, ?_, p.data,
      mapRes_project_ok v1 (fun x _ y hy => (varItem_ok hy).1),
      p.get "VNAME" (by simp [varItems]) (by decide) (by decide) (by simp [dictGet?]), p.auxData, ?_, ?_⟩
    · intro w hw
      obtain ⟨v, hv, hu⟩ := hone w (List.mem_append_left _ hw)
      by_cases hax : v.axes = []
      · exact absurd (hu.2 hax).1 (m1 w hw).2
      · rw [hu.1 hax]; exact hv
    · rw [p.main]; simp
    all_goals
      unfold indSection at v2
      obtain ⟨_, _, v2⟩ := ok_of_bind v2
      obtain ⟨_, _, v2⟩ := ok_of_bind v2
      obtain ⟨_, _, v2⟩ := ok_of_bind v2
      obtain ⟨_, _, v2⟩ := ok_of_bind v2
      obtain ⟨_, _, v2⟩ := ok_of_bind v2
      dsimp only at v2
    · split at v2
      · obtain ⟨_, _, v2⟩ := ok_of_bind v2
        rw [← Except.ok.inj v2]; simp
      · split at v2
        · obtain ⟨_, _, v2⟩ := ok_of_bind v2
          obtain ⟨_, _, v2⟩ := ok_of_bind v2
          obtain ⟨_, _, v2⟩ := ok_of_bind v2
          rw [← Except.ok.inj v2]; simp
        · rw [← Except.ok.inj v2]; simp
    · intro hne v hv
      have hf : a.ffi = 2110 ∨ a.ffi = 2310 := by
        split at v2
        · rename_i h; exact .inl h
        · split at v2
          · rename_i h; exact .inr h
          · rw [← Except.ok.inj v2] at hne; simp at hne
      have hd := analyse_dims hv' (by rcases hf with hf | hf <;> rw [hf] <;> decide)
      obtain ⟨n, ns, k1, k2, _⟩ := analyse_shapes hv'
      have k3 : v.axes.length = ns.length + 1 := by
        have := congrArg List.length (k2 v hv)
        simpa [XVar.shape] using this
      have : (2 : Int) = a.niv := by
        rcases hf with hf | hf <;> (rw [hf] at hd; simpa [formatDims] using hd)
      omega

/-- C76. Every variable with axes that was asked for and is not a coordinate is in one of the output files, under
the conditions of C41. -/
theorem C76_all (env : XEnv F) (show_ : Tree F → Str) (requested : Option Int) (n : Nat) (nc : NCFile F)
    (ids : Option (List Str)) (ex : List Str) (ws : List (XVar F)) (passes : List (Analysis F))
    (h1 : convertSingletonVars show_ (readXarrayFile nc.vars ids ex) = .ok ws)
    (h : convert env show_ requested n (readXarrayFile nc.vars ids ex) = .ok (some passes))
    (hn : NamesApart ws) (hs : NoSubsets env.eq ws) (hm : NumbersFit XVar.naNumber ws)
    (hx : NumbersFit XVar.naAuxNumber ws) (v : XVar F) (hv : Asked nc ids ex v) (hax : v.axes ≠ [])
    (hco : ∀ w, Asked nc ids ex w → ∀ c ∈ w.axes, c.name ≠ v.name) :
    ∃ p ∈ passes, v ∈ p.main ++ p.aux := by
  have hperm := C41_partial env show_ requested n _ ws passes h1 h hn hs hm hx
  have hvr : v ∈ readXarrayFile nc.vars ids ex := by
    unfold readXarrayFile
    refine List.mem_map.2 ⟨v, List.mem_filter.2 ⟨hv.1, (takesVar_iff nc ids ex v hv.1).2 hv⟩, ?_⟩
    exact (singleValue_used v).1.1 hax
  have hws : ∀ w ∈ ws, w.axes = [] ∨ w ∈ readXarrayFile nc.vars ids ex := by
    intro w hw
    obtain ⟨u, hu, e⟩ := mapRes_mem h1 hw
    split at e
    · rename_i hr
      obtain ⟨_, _, e⟩ := ok_of_bind e
      rw [← Except.ok.inj e]
      exact .inl (by simpa [XVar.rank] using hr)
    · rw [← Except.ok.inj e]; exact .inr hu
  have hvw : v ∈ ws := by
    obtain ⟨i, hi⟩ := List.mem_iff_getElem?.1 hvr
    have hl := mapRes_ok_length _ _ _ h1
    have hlt : i < ws.length := by
      rw [hl]
      exact (List.getElem?_eq_some_iff.1 hi).1
    have := mapRes_get h1 hi (List.getElem?_eq_getElem hlt)
    rw [if_neg (by simpa [XVar.rank] using hax)] at this
    rw [Except.ok.inj this]
    exact List.getElem_mem hlt
  have hin : v ∈ passes.flatMap taken := by
    refine hperm.mem_iff.2 (List.mem_filter.2 ⟨hvw, ?_⟩)
    rw [decide_eq_true_eq]
    intro w hw hmem
    obtain ⟨c, hc, e⟩ := List.mem_map.1 hmem
    rcases hws w hw with h0 | h0
    · rw [h0] at hc; cases hc
    · obtain ⟨u, hu, e2⟩ := readXarray_mem h0
      by_cases hu0 : u.axes = []
      · rw [e2, ((singleValue_used u).1.2 hu0).1] at hc; cases hc
      · rw [e2, (singleValue_used u).1.1 hu0] at hc
        exact hco u hu c hc e
  obtain ⟨p, hp, hv2⟩ := List.mem_flatMap.1 hin
  refine ⟨p, hp, ?_⟩
  rcases List.mem_append.1 hv2 with h2 | h2
  · exact h2
  · obtain ⟨vars', hv'⟩ := convert_analysed h p hp
    exact absurd ((analyse_from hv').2.1 v h2).2 hax

/-- C76. Identifiers that the file does not have are passed over, without an error. -/
theorem C76_unknown (nc : NCFile F) (l : List Str) (ex : List Str) :
    readXarrayFile nc.vars (some l) ex
      = readXarrayFile nc.vars (some (l.filter (fun s => (nc.vars.map XVar.name).contains s))) ex := by
  unfold readXarrayFile
  refine congrArg _ (List.filter_congr fun v hv => ?_)
  have : (l.filter (fun s => (nc.vars.map XVar.name).contains s)).contains v.name = l.contains v.name := by
    rw [Bool.eq_iff_iff, List.contains_iff_mem, List.contains_iff_mem, List.mem_filter, List.contains_iff_mem]
    exact ⟨fun h => h.1, fun h => ⟨h, List.mem_map.2 ⟨v, hv, rfl⟩⟩⟩
  simp only [takesVar, this]

/-! ### Examples -/

/-- A file with bounds for its time axis. -/
def Ex.selectNC : NCFile Int :=
  { vars := [Ex.dataVar "temp" [exTime] none none, Ex.dataVar "Wind Speed" [exTime] none none,
      { Ex.dataVar "time" [exTime] none none with attrs := [("bounds", "edges".toList)] },
      Ex.dataVar "edges" [exTime, exHeight] none none, Ex.dataVar "depth" [exAxis "level" [1, 2, 3]] none none],
    attrs := Ex.globals }

def Ex.selectApi : ApiEnv Int := { exApi with openNC := fun _ => .ok Ex.selectNC }

/-- Bounds are left out although they were asked for; so is a variable whose name is like an excluded one; an unknown
identifier does no harm. The two variables left go to two files. -/
example :
    (readXarrayFile Ex.selectNC.vars (some ["edges".toList, "depth".toList, "no".toList, "temp".toList]) []).map XVar.name
      = ["temp".toList, "depth".toList] ∧
    (readXarrayFile Ex.selectNC.vars none ["wind_speed".toList, "TIME".toList]).map XVar.name
      = ["temp".toList, "depth".toList] ∧
    (convertNCToNA (fun _ => .ok ()) Ex.selectApi { exArgs with excludeVars := ["WIND_speed".toList] }).result
      = .ok ["a.nc_1.na".toList, "a.nc_2.na".toList] := by
  decide +kernel

/-- The hypotheses of `C76_all` can be met: both variables asked for are found. -/
example : ∃ ws passes,
    convertSingletonVars (fun _ => []) (readXarrayFile Ex.selectNC.vars none ["wind_speed".toList]) = .ok ws ∧
    convert exXEnv (fun _ => []) none 9 (readXarrayFile Ex.selectNC.vars none ["wind_speed".toList]) = .ok (some passes) ∧
    NamesApart ws ∧ NoSubsets exXEnv.eq ws ∧ NumbersFit XVar.naNumber ws ∧ NumbersFit XVar.naAuxNumber ws ∧
    passes.map (fun p => p.main.map XVar.name) = [["temp".toList], ["depth".toList]] := by
  have h : ∃ passes, convert exXEnv (fun _ => []) none 9 (readXarrayFile Ex.selectNC.vars none ["wind_speed".toList])
      = .ok (some passes) ∧ passes.map (fun p => p.main.map XVar.name) = [["temp".toList], ["depth".toList]] :=
    found_of_eval (by decide +kernel)
  obtain ⟨passes, h1, h2⟩ := h
  refine ⟨[Ex.dataVar "temp" [exTime] none none,
    { Ex.dataVar "time" [exTime] none none with attrs := [("bounds", "edges".toList)] },
    Ex.dataVar "depth" [exAxis "level" [1, 2, 3]] none none], passes, rfl, h1, ?_, ?_, ⟨?_, ?_⟩, ⟨?_, ?_⟩, h2⟩
  · intro v hv w hw
    simp only [List.mem_cons, List.not_mem_nil, or_false] at hv hw
    rcases hv with rfl | rfl | rfl <;> rcases hw with rfl | rfl | rfl <;> simp [Ex.dataVar, exVar]
  · intro v hv w hw a b more ha hb
    simp only [List.mem_cons, List.not_mem_nil, or_false] at hv hw
    rcases hv with rfl | rfl | rfl <;> simp only [Ex.dataVar, exVar, List.cons.injEq, and_true] at ha <;> subst ha <;> rcases hw with rfl | rfl | rfl <;>
      simp only [Ex.dataVar, exVar, List.cons.injEq] at hb <;> (obtain ⟨rfl, _⟩ := hb; decide)
  · intro v hv i hi
    simp only [List.mem_cons, List.not_mem_nil, or_false] at hv
    rcases hv with rfl | rfl | rfl <;> simp [Ex.dataVar, exVar] at hi
  · simp [Ex.dataVar, exVar]
  · intro v hv i hi
    simp only [List.mem_cons, List.not_mem_nil, or_false] at hv
    rcases hv with rfl | rfl | rfl <;> simp [Ex.dataVar, exVar] at hi
  · simp [Ex.dataVar, exVar]

end Nappy.Props
