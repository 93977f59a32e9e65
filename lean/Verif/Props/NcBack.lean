import Verif.Props.ConvertFile
import Verif.Props.ToNC
import Verif.Props.Names
import Verif.BackLemmas

/-! Property C88: NetCDF variables through a NASA Ames file and back. -/

namespace Nappy.Props

open Nappy Spec

variable {F : Type}

section
variable {x : XEnv F} {q : F → F} {a : Analysis F} {d : Dict (PyVal F)} {o : Obj F} {env : ToXEnv F}
  {user : Dict (PyVal F)} {sel auxSel : Selection} {tu : Option Str} {r : ToXResult F}

/-- The file has as many main variables as went into it. -/
theorem holds_count (hh : Holds x q a d o) (hf : a.ffi = 1001 ∨ a.ffi = 2010 ∨ a.ffi = 3010 ∨ a.ffi = 4010) :
    (varHeader o).NV = a.main.length ∧ WfVars (varHeader o) := by
  have hv : WfVars (varHeader o) := by
    rcases hf with hf | hf
    · obtain ⟨r, rfl, w⟩ := hh.wf1001 hf
      exact w.vars
    · obtain ⟨r, rfl, w⟩ := hh.wf2010 hf
      exact w.vars
  have := congrArg List.length hh.missing
  rw [List.length_map] at this
  exact ⟨by rw [← this]; exact hv.vmiss.symm, hv⟩

/-- C88 for the main variables. -/
theorem C88_main (hh : Holds x q a d o) (hf : a.ffi = 1001 ∨ a.ffi = 2010 ∨ a.ffi = 3010 ∨ a.ffi = 4010)
    (hmul : ∀ y, env.mul y x.one = y) (h : toXarray env user .all auxSel tu o = .ok r) :
    List.Forall₂ (fun w v => v.data = mapTree q (written x w) ∧ v.miss = some (w.miss.getD x.defaultMiss)) a.main
      r.vars := by
  obtain ⟨l1, l2⟩ := C64_values h
  obtain ⟨n1, _⟩ := holds_count hh hf
  refine List.forall₂_iff_get.2 ⟨by omega, fun i hi hi' => ?_⟩
  simp only [List.get_eq_getElem]
  obtain ⟨⟨name, miss, scale, data, ⟨_, e1, e2⟩, e3, e4, e5, _⟩, _⟩ := l2 i _ (List.getElem?_eq_getElem hi')
  rw [hh.arrays hf i, List.getElem?_eq_getElem hi] at e3
  rw [hh.missing, List.getElem?_map, List.getElem?_eq_getElem hi] at e1
  rw [hh.scale, List.getElem?_map, List.getElem?_eq_getElem hi] at e2
  injection e1 with e1
  injection e2 with e2
  injection e3 with e3
  rw [e4, e5, ← e1, ← e2, ← e3, mapTree_id hmul]
  exact ⟨rfl, rfl⟩

/-- C88 for the auxiliary variables. -/
theorem C88_aux (hh : Holds x q a d o) (hf : a.ffi = 2010 ∨ a.ffi = 3010 ∨ a.ffi = 4010)
    (hmul : ∀ y, env.mul y x.one = y) (h : toXarray env user sel .all tu o = .ok r) :
    List.Forall₂ (fun w v => v.data = .lst (((leaves (written x w)).map q).map .val) ∧
      v.miss = some (w.miss.getD x.defaultMiss)) a.aux r.aux := by
  obtain ⟨l1, l2⟩ := C64_aux h
  obtain ⟨pre, hd, e1, e2, e3, e4, e5, _⟩ := hh.aux (by omega) (by omega)
  obtain ⟨s, rfl, w⟩ := hh.wf2010 hf
  have h0 : ownAux a.ffi = 0 := by simp [ownAux, show a.ffi ≠ 2110 by omega, show a.ffi ≠ 2310 by omega]
  rw [h0] at e1 e4 e5
  rw [List.length_eq_zero_iff.1 e1, List.nil_append] at e3
  injection e2 with e2
  subst e2
  simp only [List.drop_zero] at e4 e5
  have n1 : s.aux.NAUXV = a.aux.length := by
    have := congrArg List.length e4
    rw [List.length_map] at this
    rw [← this]
    exact w.aux.amiss.symm
  have l1 : r.aux.length = s.aux.NAUXV.toNat := l1
  refine List.forall₂_iff_get.2 ⟨by omega, fun i hi hi' => ?_⟩
  simp only [List.get_eq_getElem]
  obtain ⟨⟨name, miss, scale, col, ⟨_, ⟨m, g1, g2⟩, _, g3⟩, g5, g6, g7, _⟩, _⟩ :=
    l2 i _ (List.getElem?_eq_getElem hi')
  have g5 : s.A[i]? = some col := g5
  rw [show s.A = _ from e3, List.getElem?_map, List.getElem?_eq_getElem hi] at g5
  rw [e4, List.getElem?_map, List.getElem?_eq_getElem hi] at g1
  rw [e5, List.getElem?_map, List.getElem?_eq_getElem hi] at g3
  injection g1 with g1
  injection g2 with g2
  injection g3 with g3
  injection g5 with g5
  rw [g6, g7, ← g3, ← g5, g2, ← g1, mapTree_id hmul]
  exact ⟨rfl, rfl⟩

/-- The values of the axes are determined. -/
theorem axisValues_unique {add : F → F → F} {l l' : List (List F)} (h : AxisValues add o l) (h' : AxisValues add o l') :
    l = l' := by
  cases o with
  | o1001 r => exact h.trans h'.symm
  | o1010 r => exact h.trans h'.symm
  | o2010 r =>
    obtain ⟨s, h1, h2⟩ := h
    obtain ⟨s', h1', h2'⟩ := h'
    rw [h1] at h1'
    injection h1' with e
    rw [h2, h2', e]
  | _ => exact h.elim

/-- C88 for the axis of 1001: the main variables have the axis of the first one. -/
theorem C88_axis (hh : Holds x q a d o) (hf : a.ffi = 1001) (h : toXarray env user .all auxSel tu o = .ok r) :
    ∃ w0 ax0, a.main.head? = some w0 ∧ w0.axes.head? = some ax0 ∧
      ∀ v ∈ r.vars, v.axes.map XAxis.values = [ax0.values.map q] := by
  obtain ⟨w0, ax0, e1, e2, e3⟩ := hh.axis (by omega)
  obtain ⟨s, rfl, w⟩ := hh.wf1001 hf
  refine ⟨w0, ax0, e1, e2, fun v hv => ?_⟩
  obtain ⟨i, hi⟩ := List.mem_iff_getElem?.1 hv
  obtain ⟨_, _, _, _, l, g1, g2⟩ := (C64_values h).2 i v hi
  have g1 : l = [s.X] := g1
  have e3 : s.X = ax0.values.map q := e3
  have g3 : (axisHeader (Obj.o1001 s)).1 = 1 := w.niv
  rw [g2, g1, g3, e3]
  rfl

/-- C88 for the axes of 2010, 3010 and 4010, for exact steps and values that the number format keeps. -/
theorem C88_axes_partial (hh : Holds x q a d o) (hf : a.ffi = 2010 ∨ a.ffi = 3010 ∨ a.ffi = 4010)
    (hx : ExactSteps x env.add) (hq : ∀ w ∈ a.main, ∀ ax ∈ w.axes, ∀ y ∈ ax.values, q y = y)
    (h : toXarray env user .all auxSel tu o = .ok r) :
    ∃ w0, a.main.head? = some w0 ∧ ∀ v ∈ r.vars, v.axes.map XAxis.values = w0.axes.map XAxis.values := by
  obtain ⟨w0, ax0, more, e1, e2, e3, e4, e5⟩ := hh.axes hf
  have e5 := e5 _ hx (hq w0 (List.mem_of_mem_head? (by rw [e1]; rfl)))
  obtain ⟨s, rfl, w⟩ := hh.wf2010 hf
  refine ⟨w0, e1, fun v hv => ?_⟩
  obtain ⟨i, hi⟩ := List.mem_iff_getElem?.1 hv
  obtain ⟨_, _, _, _, l, g1, g2⟩ := (C64_values h).2 i v hi
  rw [axisValues_unique g1 e5] at g2
  have g3 : (axisHeader (Obj.o2010 s)).1 = s.NIV := rfl
  have k1 := congrArg List.length w.axes
  have k2 := w.nxdef
  have k3 : s.XB.length = more.length := e3
  rw [List.length_map] at k1
  rw [g2, g3, List.take_of_length_le]
  rw [e2, List.length_map, List.length_cons]
  omega

/-- Values that are numbers and that the number format keeps are the same as before. -/
theorem C88_same (w : XVar F) (hw : DataFits w) (hv : ∀ y ∈ leaves w.data, x.isNaN y = false ∧ q y = y) :
    mapTree q (written x w) = w.data := by
  have e : written x w = w.data := mapTree_same hw fun y hy => by simp [(hv y hy).1]
  rw [e]
  exact mapTree_same hw fun y hy => (hv y hy).2

/-- C88 for the units: a name with units at its end gives them back. -/
theorem C88_units (hn : mapRes XVar.bestName a.main = .ok (varHeader o).VNAME) (hcb : env.cb = none)
    (h : toXarray env user .all auxSel tu o = .ok r) {i : Nat} {w v : XVar F} (hw : a.main[i]? = some w)
    (hv : r.vars[i]? = some v) {u : Str} (h1 : calledBy w.attrs w.name ≠ [] ∧ '\n' ∉ calledBy w.attrs w.name)
    (h2 : unitsOf (dictGet? w.attrs "units") w.encUnits = u) (h3 : u ≠ [])
    (h4 : ∀ c ∈ u, c ≠ '(' ∧ c ≠ ')' ∧ c ≠ '\n')
    (h5 : ¬ Occurs ("(".toList ++ u ++ ")".toList) (calledBy w.attrs w.name)) :
    dictGet? v.attrs "units" = some u := by
  obtain ⟨⟨name, miss, scale, data, ⟨e1, _⟩, _, _, _, e2⟩, _⟩ := (C64_values h).2 i v hv
  have e3 := C73_new w u h1.1 h2 h3 (fun hm => (h4 _ hm).1 rfl) h5
  have e4 := mapRes_get hn hw e1
  rw [e3] at e4
  injection e4 with e4
  rw [e2, ← e4, hcb, C47_split _ _ h1.2 h3 h4]
  cases u with
  | nil => exact absurd rfl h3
  | cons c u => rfl

end

section
variable {env : CollectEnv F} {globals : Dict (PyVal F)} {a : Analysis F} {d : Dict (PyVal F)}
  {requested : Option Int} {vars : List (XVar F)}

/-- A file that holds the variables, converted to NetCDF. -/
theorem nc_back {cd : Codec F} {q : F → F} {d' : Dict (PyVal F)} {text : Str} {o : Obj F}
    (h3 : readFile cd 0 text = .ok o) (hh : Holds env.x q a d' o)
    (hf4 : a.ffi = 1001 ∨ a.ffi = 2010 ∨ a.ffi = 3010 ∨ a.ffi = 4010)
    (ha : analyse env.x requested vars = .ok (some a)) (hdata : ∀ v ∈ a.main ++ a.aux, DataFits v)
    {tenv : ToXEnv F} (hmul : ∀ y, tenv.mul y env.x.one = y) {typed : List Str} {naFile : Str} {args : NAToNCArgs F}
    (hm : args.mainVars = .all) (hx : args.auxVars = .all) {name : Str} {nc : NCFile F}
    (hc : convertNAToNC cd tenv typed naFile text args = .ok (name, nc))
    (hlen : nc.vars.length = a.main.length + a.aux.length) :
    List.Forall₂ (fun w v => v.data = mapTree q (written env.x w) ∧ v.miss = some (w.miss.getD env.x.defaultMiss))
      (a.main ++ a.aux) nc.vars := by
  obtain ⟨o', r, g1, g2, g3, g4, g5, g6⟩ := C77_file hc
  rw [h3] at g1
  have e := Except.ok.inj g1
  subst e
  rw [hm, hx] at g2
  generalize ht : ({ tenv with renames := _, answers := _ } : ToXEnv F) = te at g2
  have hmul : ∀ y, te.mul y env.x.one = y := by rw [← ht]; exact hmul
  have m1 := C88_main hh hf4 hmul g2
  obtain ⟨n, ns, hniv, hmain, haux⟩ := analyse_shapes ha
  have m2 : List.Forall₂ (fun w v => v.data = mapTree q (written env.x w) ∧
      v.miss = some (w.miss.getD env.x.defaultMiss)) a.aux r.aux := by
    rcases hf4 with hf4 | hf4
    · have e1 := analyse_no_aux ha (by
        have := analyse_dims ha (by rw [hf4]; decide)
        rw [hf4] at this
        simp [formatDims] at this; omega)
      obtain ⟨s, rfl, _⟩ := hh.wf1001 hf4
      have e2 : r.aux = [] := List.length_eq_zero_iff.1 (C64_aux g2).1
      rw [e1, e2]
      exact .nil
    · have m := C88_aux hh hf4 hmul g2
      obtain ⟨l1, l2⟩ := List.forall₂_iff_get.1 m
      refine List.forall₂_iff_get.2 ⟨l1, fun i hi hi' => ?_⟩
      obtain ⟨k1, k2⟩ := l2 i hi hi'
      refine ⟨?_, k2⟩
      simp only [List.get_eq_getElem] at k1 ⊢
      have hw := written_shaped env.x (hdata _ (List.mem_append_right _ (List.getElem_mem hi)))
      rw [haux _ (List.getElem_mem hi)] at hw
      rw [k1, ← leaves_mapTree]
      exact col_leaves (shaped_mapTree q _ _ hw)
  have hnd : ((r.vars ++ r.aux).map XVar.name).Nodup := by
    have hsub : (nc.vars.map XVar.name).Subperm ((r.vars ++ r.aux).map XVar.name) :=
      List.subperm_of_subset g3 (fun s hs => (g4 s).1 hs)
    have hp := hsub.perm_of_length_le (by
      rw [List.length_map, List.length_map, List.length_append, hlen, m1.length_eq, m2.length_eq])
    exact hp.nodup_iff.1 g3
  rw [g6 hnd]
  exact List.rel_append m1 m2

/-- C88. Variables are written by a pass of the conversion, and the file is converted to NetCDF again. If no two
variables get the same name, the NetCDF file has the same variables, with their values and missing values, main ones
first. With one axis, and if the caller is not asked for units of time, the file can be converted. -/
theorem C88_pass (fe : Env F) {q : F → F} (hcd : fe.cd.Lawful q) (hann : fe.ann = none) (hdel : WsDelim fe.delim)
    (hf4 : a.ffi = 1001 ∨ a.ffi = 2010 ∨ a.ffi = 3010 ∨ a.ffi = 4010)
    {cfg : WriteConfig F} {items : Dict (PyVal F)} {delimiter : Str} {d' : Dict (PyVal F)}
    (ha : analyse env.x requested vars = .ok (some a)) (h : collectDict env globals a = .ok d) (hkept : Kept a d)
    (hdata : ∀ v ∈ a.main ++ a.aux, DataFits v) (hfull : ∀ v ∈ a.main, ∀ ax ∈ v.axes, ax.values ≠ [])
    (hs : SourceFits d) (hk : TopLineKept d a.ffi)
    (hp : prepareDict cfg items delimiter d = .ok d') (hf : HeaderFits d')
    (tenv : ToXEnv F) (hmul : ∀ y, tenv.mul y env.x.one = y) (typed : List Str) (naFile : Str) (args : NAToNCArgs F)
    (hm : args.mainVars = .all) (hx : args.auxVars = .all) :
    ∃ dd out, writeDict fe false d' = .ok (dd, out) ∧ out.err = none ∧
      (∀ name nc, convertNAToNC fe.cd tenv typed naFile out.text args = .ok (name, nc) →
        nc.vars.length = a.main.length + a.aux.length →
        List.Forall₂ (fun w v => v.data = mapTree q (written env.x w) ∧ v.miss = some (w.miss.getD env.x.defaultMiss))
          (a.main ++ a.aux) nc.vars) ∧
      (a.ffi = 1001 → args.timeWarning = false →
        ∃ nc, convertNAToNC fe.cd tenv typed naFile out.text args = .ok nc) := by
  obtain ⟨dd, out, o, h1, h2, h3, hh⟩ := C75_pass fe hcd hann hdel (fun h => by omega) ha h hkept hdata hfull hs hk hp hf
  refine ⟨dd, out, h1, h2, fun name nc hc hlen => nc_back h3 hh hf4 ha hdata hmul hm hx hc hlen, fun h1001 hw => ?_⟩
  obtain ⟨s, rfl, w⟩ := hh.wf1001 h1001
  unfold readFile at h3
  obtain ⟨o1, g1, g2⟩ := ok_of_bind h3
  unfold convertNAToNC
  rw [g1, ok_bind, g2, ok_bind, hm, hx, hw]
  obtain ⟨r, hr⟩ := C66_1001 (env := { tenv with renames := args.renameVariables, answers := none })
    (user := args.globalAttributes) (tu := args.timeUnits) w (.inr (.inl rfl))
  simp only [Bool.false_eq_true, if_false, hr, ok_bind]
  exact ⟨_, rfl⟩

end

/-- C88 for a whole call of `convertNCToNA`: each of the files brings back the variables that were written to it. -/
theorem C88_run (fmt : Str → Codec F) (table : String → Str) (env : ApiEnv F) (args : NCToNAArgs F) {q : F → F}
    (hcd : (fmt args.opts.floatFormat).Lawful q) (hdel : WsDelim args.opts.delimiter)
    (ho : args.opts.annotation = false) (hh : args.opts.noHeader = false) (hsz : args.opts.sizeLimit = none)
    (hnames : args.onlyNames = false)
    {nc : NCFile F} (hnc : env.openNC args.ncFile = .ok nc) {passes : List (Analysis F)} {ds : List (Dict (PyVal F))}
    (hp : convert env.collect.x env.showTree args.requestedFFI
      (readXarrayFile nc.vars args.varIds args.excludeVars).length
      (readXarrayFile nc.vars args.varIds args.excludeVars) = .ok (some passes))
    (hds : mapRes (collectDict env.collect nc.attrs) passes = .ok ds)
    (hcount : ∀ a ∈ passes, MarksRead env.collect.x (fmt args.opts.floatFormat) q a)
    (hfit : ∀ (i : Nat) a d, passes[i]? = some a → ds[i]? = some d →
      PassFits env args.naItems args.opts.delimiter a d)
    (tenv : ToXEnv F) (hmul : ∀ y, tenv.mul y env.collect.x.one = y) (typed : List Str) (back : NAToNCArgs F)
    (hm : back.mainVars = .all) (hx : back.auxVars = .all) :
    ∃ names, (convertNCToNA (emitFile fmt table) env args).result = .ok names ∧ names.length = passes.length ∧
      ∀ (i : Nat) a c, passes[i]? = some a → (convertNCToNA (emitFile fmt table) env args).calls[i]? = some c →
        a.ffi = 1001 ∨ a.ffi = 2010 ∨ a.ffi = 3010 ∨ a.ffi = 4010 →
        ∃ out, fileOf fmt table c = .ok out ∧ out.err = none ∧
          ∀ name nc', convertNAToNC (fmt args.opts.floatFormat) tenv typed c.name out.text back = .ok (name, nc') →
            nc'.vars.length = a.main.length + a.aux.length →
            List.Forall₂ (fun w v => v.data = mapTree q (written env.collect.x w) ∧
              v.miss = some (w.miss.getD env.collect.x.defaultMiss)) (a.main ++ a.aux) nc'.vars := by
  obtain ⟨names, e1, e2, _, _, e3⟩ := C75_run fmt table env args hcd hdel ho hh hsz hnames hnc hp hds hcount hfit
  refine ⟨names, e1, e2, fun i a c hi hc hf4 => ?_⟩
  obtain ⟨out, o, g1, g2, g3, g4⟩ := e3 i a c hi hc
  obtain ⟨vars', ha⟩ := convert_analysed hp a (List.mem_of_getElem? hi)
  have hlt := (List.getElem?_eq_some_iff.1 hi).1
  have hlen := mapRes_ok_length _ _ _ hds
  have hfit := hfit i a (ds[i]'(by omega)) hi (List.getElem?_eq_getElem _)
  exact ⟨out, g1, g2, fun name nc' hb hl => nc_back g3 g4 hf4 ha hfit.data hmul hm hx hb hl⟩

/-! ### Concrete cases -/

/-- The files that a call writes, each converted to NetCDF: names, missing values and values. -/
def Ex.back (api : ApiEnv Int) (args : NCToNAArgs Int) : List (Option (List (Str × Option Int × List Int))) :=
  (convertNCToNA (emitFile (fun _ => Ex.tensCodec) exTable) api args).calls.map (fun c =>
    match fileOf (fun _ => Ex.tensCodec) exTable c with
    | .ok out => match convertNAToNC Ex.tensCodec Ex.toXEnv [] c.name out.text Ex.toNCArgs with
      | .ok p => some (p.2.vars.map (fun v => (v.name, v.miss, leaves v.data)))
      | _ => none
    | _ => none)

/-- The hypotheses of `C88_run` are met; the numbers lose their last digit in the file. Both files bring back their
variables. -/
example : ∃ names, (convertNCToNA (emitFile (fun _ => Ex.tensCodec) exTable) Ex.sourceApi Ex.sourceArgs).result
    = .ok names ∧ names.length = 2 := by
  obtain ⟨passes, ds, h1, h2, h3, h4, h5⟩ := Ex.run_of (env := Ex.sourceApi) (args := Ex.sourceArgs) (nc := Ex.source)
    (n := 2) (by decide +kernel)
  obtain ⟨names, e1, e2, _⟩ := C88_run (fun _ => Ex.tensCodec) exTable Ex.sourceApi Ex.sourceArgs Ex.tens_lawful
    (by decide) rfl rfl rfl rfl (nc := Ex.source) rfl h1 h2 (fun a ha hf => absurd hf (not_or.2 (h4 a ha))) h5
    Ex.toXEnv (fun y => Int.mul_one y) [] Ex.toNCArgs rfl rfl
  exact ⟨names, e1, by omega⟩

example : Ex.back Ex.sourceApi Ex.sourceArgs =
    [some [("temp".toList, some (-99), [0, 10, 10, 20, 20, 30, 30, 40]), ("wind".toList, some (-99), [0, 10, 20, 30])],
     some [("depth".toList, some (-99), [0, 10, 20])]] := by decide +kernel

/-- C88 fails if two names differ in capitals only: one of the variables is lost on the way back. -/
theorem C88_names_fails :
    Ex.back { exApi with openNC := fun _ => .ok { vars := [Ex.dataVar "Temp" [exTime] none none,
                                                          Ex.dataVar "temp" [exTime] none none],
                                                  attrs := Ex.globals } } Ex.sourceArgs =
      [some [("temp".toList, some (-99), [0, 10, 20, 30])]] := by decide +kernel

end Nappy.Props
