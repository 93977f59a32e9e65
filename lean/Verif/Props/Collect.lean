import Verif.CollectCheck
import Verif.InstLemmas
import Verif.Props.RoundTrip

/-! Properties of the dictionaries that the conversion makes from variables. -/

namespace Nappy.Props

open Nappy Spec

variable {F : Type}

/-! ### C59 -/

section
variable {env : CollectEnv F} {requested : Option Int} {vars : List (XVar F)} {globals : Dict (PyVal F)}
  {a : Analysis F} {d : Dict (PyVal F)}

/-- The data of variables with one axis. -/
theorem columns_ok (env : XEnv F) {l : List (XVar F)} {n : Nat} (hs : ∀ v ∈ l, v.shape = [n])
    (hd : ∀ v ∈ l, DataFits v) :
    PyVal.list (l.map (fun v => pyTree (written env v))) = pyCols (l.map (fun v => leaves (written env v))) ∧
      ∀ col ∈ l.map (fun v => leaves (written env v)), col.length = n := by
  have key : ∀ v ∈ l, Shaped [n] (written env v) := fun v hv => hs v hv ▸ written_shaped env (hd v hv)
  refine ⟨?_, ?_⟩
  · rw [pyCols, List.map_map]
    congr 1
    refine List.map_congr_left fun v hv => ?_
    exact (pyTree_one (key v hv)).1
  · intro col hc
    obtain ⟨v, hv, rfl⟩ := List.mem_map.1 hc
    exact (pyTree_one (key v hv)).2

/-- C59 for 1001. If the data have the shape of the axes and the texts fit into a header, the dictionary describes
a well-formed file: the axis is that of the first variable, the columns are the data with the missing value in
place of values that are not numbers, names and missing values are those of the variables, in order. -/
theorem C59_1001 (ha : analyse env.x requested vars = .ok (some a)) (hf : a.ffi = 1001)
    (h : collectDict env globals a = .ok d) (hdata : ∀ v ∈ a.main, DataFits v) (ht : TextsFit d)
    (hk : TopLineKept d 1001) :
    ∃ r : NA1001 F, Describes d (.o1001 r) ∧ Wf1001 r ∧
      (∃ v, a.main.head? = some v ∧ v.axes.map XAxis.values = [r.X] ∧
        mapRes XAxis.bestName v.axes = .ok r.XNAME) ∧
      r.V = a.main.map (fun v => leaves (written env.x v)) ∧
      r.v.VMISS = a.main.map (fun v => v.miss.getD env.x.defaultMiss) ∧
      r.v.VSCAL = a.main.map (fun _ => env.x.one) ∧
      mapRes XVar.bestName a.main = .ok r.v.VNAME := by
  obtain ⟨p⟩ := collectDict_parts h
  obtain ⟨n, ns, hniv, hmain, haux⟩ := analyse_shapes ha
  have hdims := analyse_dims ha (by rw [hf]; decide)
  rw [hf] at hdims
  have hns : ns = [] := List.length_eq_zero_iff.1 (by simp [formatDims] at hdims; omega)
  subst hns
  obtain ⟨c, wc, c1, c2, c3, c4⟩ := p.common ht (by rw [hf]; exact hk)
  obtain ⟨vh, wv, v1, v2, v3, v4, v5⟩ := p.varHdr ht
  obtain ⟨ch, wch, ch1⟩ := p.comHdr ht
  obtain ⟨ax0, name0, dx0, hax, hlen, _, hnm, _, hxn, hdx, hX, _⟩ :=
    p.oneAxis hmain (by rw [hf]; decide) (by rw [hf]; decide)
  obtain ⟨k1, k2⟩ := columns_ok env.x hmain hdata
  refine ⟨{ c := c, NIV := a.niv, DX := [dx0], XNAME := [name0], v := vh, com := ch, X := ax0.values,
            V := a.main.map (fun v => leaves (written env.x v)) },
    describes_of (l := commonAttrs c a.niv ++ [("DX", pyNums [dx0]), ("XNAME", pyStrs [name0])] ++ varAttrs vh
      ++ comAttrs ch ++ [("X", pyNums ax0.values),
        ("V", pyCols (a.main.map (fun v => leaves (written env.x v))))]) ?_ ?_, ?_, ?_, rfl, v2, v3, v4⟩
  · simp [Obj.attrs]
  · refine partOf_append (partOf_append (partOf_append (partOf_append c4 ?_) v5) ch1) ?_
    · exact partOf_cons hdx (partOf_cons hxn (partOf_nil d))
    · exact partOf_cons (hX (.inl hf)) (partOf_cons (by rw [p.data, k1]) (partOf_nil d))
  · exact
      { common := wc, ffi := by rw [c1, hf], niv := by simp [hniv], dx := rfl, xname := rfl,
        xnames := ht.names "XNAME" (by simp) _ hxn, vars := wv, com := wch,
        data := ⟨by simp [v1], by rw [hlen]; exact k2⟩ }
  · exact ⟨p.v, by rw [p.main]; rfl, by rw [hax]; rfl, by rw [hax, mapRes, hnm]; rfl⟩

/-- The assumptions are met by two variables on one axis. -/
example : ∃ a d, Ex.Collected Ex.collectEnv none Ex.globals
    [Ex.dataVar "temp" [exTime] none none, Ex.dataVar "pressure" [exTime] none none] 1001 a d ∧
      decide (a.main.length = 2) = true :=
  Ex.collected_of (P := fun a _ => decide (a.main.length = 2)) (by decide +kernel)

/-- C60 fails. Data with one axis never have auxiliary variables, whatever the variables say about themselves. -/
theorem C60_one_axis (env : XEnv F) (ha : analyse env requested vars = .ok (some a)) (h1 : a.niv = 1) :
    a.aux = [] := analyse_no_aux ha h1

/-- C60 fails. Format 1010 is never chosen, not even on request: the contents of a file of this format cannot go
back to it. -/
theorem C60_never_1010 (env : XEnv F) (ha : analyse env requested vars = .ok (some a)) : a.ffi ≠ 1010 :=
  analyse_never_1010 ha

/-- C60 fails, a case: a variable marked as auxiliary becomes a main variable. -/
theorem C60_mark_ignored :
    ∃ a, analyse exXEnv none [exVar "temp" [exTime] (some 0) none, exVar "flag" [exTime] none (some 0)]
        = .ok (some a) ∧ a.main.map XVar.name = ["temp".toList, "flag".toList] ∧ a.aux.map XVar.name = [] :=
  found_of_eval (by decide +kernel)

/-- For witnesses: a computation that evaluates to an error. -/
theorem error_of_eval {α : Type} {r : Res α} {e : Err}
    (h : (match r with | .error e' => decide (e' = e) | _ => false) = true) : r = .error e := by
  split at h
  · rw [of_decide_eq_true h]
  · cases h

/-- C60 fails, a case: the request for 1010 is refused. -/
theorem C60_request_refused :
    analyse exXEnv (some 1010) [exVar "temp" [exTime] (some 0) none, exVar "flag" [exTime] none (some 0)]
      = .error .exn := error_of_eval (by decide +kernel)

/-- C59 for 1020, in part: for data with one axis. Each mark is every `NVPM`-th value of the axis. What is missing:
format 1020 is also given to data with more axes, and then no well-formed file is described, see
`C59_1020_fails`. -/
theorem C59_1020_partial (ha : analyse env.x requested vars = .ok (some a)) (hf : a.ffi = 1020)
    (h1 : a.niv = 1)
    (h : collectDict env globals a = .ok d) (hdata : ∀ v ∈ a.main, DataFits v) (ht : TextsFit d)
    (hk : TopLineKept d 1020) :
    ∃ r : NA1020 F, Describes d (.o1020 r) ∧ Wf1020 r ∧
      (∃ v xs, a.main.head? = some v ∧ v.axes.map XAxis.values = [xs] ∧
        mapRes XAxis.bestName v.axes = .ok r.XNAME ∧
        (xs.length : Int) = r.NVPM * r.X.length ∧ ∀ i, r.X[i]? = xs[r.NVPM.toNat * i]?) ∧
      r.V = a.main.map (fun v => leaves (written env.x v)) ∧
      r.v.VMISS = a.main.map (fun v => v.miss.getD env.x.defaultMiss) ∧
      r.v.VSCAL = a.main.map (fun _ => env.x.one) ∧
      mapRes XVar.bestName a.main = .ok r.v.VNAME := by
  obtain ⟨p⟩ := collectDict_parts h
  obtain ⟨n, ns, hniv, hmain, haux⟩ := analyse_shapes ha
  have hns : ns = [] := List.length_eq_zero_iff.1 (by omega)
  subst hns
  obtain ⟨c, wc, c1, c2, c3, c4⟩ := p.common ht (by rw [hf]; exact hk)
  obtain ⟨vh, wv, v1, v2, v3, v4, v5⟩ := p.varHdr ht
  obtain ⟨ch, wch, ch1⟩ := p.comHdr ht
  obtain ⟨ah, wa, a1, a2, a3, ⟨names, a4, a5⟩, a6⟩ := p.auxHdr ht
  obtain ⟨ax0, name0, dx0, hax, hlen, hnil, hnm, _, hxn, hdx, _, hX⟩ :=
    p.oneAxis hmain (by rw [hf]; decide) (by rw [hf]; decide)
  obtain ⟨step, hstep, hX⟩ := hX hf
  obtain ⟨hpos, k, more, hk2⟩ := analyse_factor ha hstep
  have hk3 : n = step * k := by
    have e1 := hk2 p.v (by rw [p.main]; simp)
    rw [hmain p.v (by rw [p.main]; simp)] at e1
    injection e1
  have hXlen : (everyGo step 0 ax0.values).length = k := everyGo_length step hpos k _ (by rw [hlen, hk3])
  have hA := p.auxData
  have hx := analyse_no_aux ha h1
  rw [hnil, hx] at hA
  rw [hnil, hx] at a1
  obtain ⟨k1, k2⟩ := columns_ok env.x hmain hdata
  refine ⟨{ c := c, NIV := a.niv, DX := [dx0], NVPM := step, XNAME := [name0], v := vh, aux := ah, com := ch,
            X := everyGo step 0 ax0.values, A := [], V := a.main.map (fun v => leaves (written env.x v)) },
    describes_of (l := commonAttrs c a.niv ++ [("DX", pyNums [dx0]), ("NVPM", .int step),
        ("XNAME", pyStrs [name0])] ++ varAttrs vh
      ++ auxAttrs ah ++ comAttrs ch ++ [("X", pyNums (everyGo step 0 ax0.values)), ("A", pyCols []),
        ("V", pyCols (a.main.map (fun v => leaves (written env.x v))))]) ?_ ?_, ?_, ?_, rfl, v2, v3, v4⟩
  · simp [Obj.attrs]
  · refine partOf_append (partOf_append (partOf_append (partOf_append (partOf_append c4 ?_) v5) a6) ch1) ?_
    · refine partOf_cons hdx (partOf_cons ?_ (partOf_cons hxn (partOf_nil d)))
      rw [p.items "NVPM" (by simp [varItems]), varsDict_nvpm, hstep]
      rfl
    · exact partOf_cons hX (partOf_cons hA (partOf_cons (by rw [p.data, k1]) (partOf_nil d)))
  · exact
      { common := wc, ffi := by rw [c1, hf], niv := by simp [h1], dx := rfl, nvpm := by show (1 : Int) ≤ step; omega,
        xname := rfl,
        xnames := ht.names "XNAME" (by simp) _ hxn, vars := wv, aux := wa, com := wch,
        aux_data := ⟨by simp [a1], by simp⟩,
        data := ⟨by simp [v1], by rw [hXlen, Int.toNat_natCast, Nat.mul_comm, ← hk3]; exact k2⟩ }
  · refine ⟨p.v, ax0.values, by rw [p.main]; rfl, by rw [hax]; rfl, by rw [hax, mapRes, hnm]; rfl, ?_, ?_⟩
    · simp only [hXlen, hlen, hk3]; push_cast; rfl
    · intro i
      exact everyGo_get step hpos _ i

/-- The assumptions are met: the request for 1020 and a second variable on every other value of the axis. -/
example : ∃ a d, Ex.Collected Ex.collectEnv (some 1020) Ex.globals
    [Ex.dataVar "temp" [exTime] none none, Ex.dataVar "sparse" [exAxis "time" [0, 2]] none none] 1020 a d ∧
      decide (a.niv = 1) = true :=
  Ex.collected_of (P := fun a _ => decide (a.niv = 1)) (by decide +kernel)

/-- C59 fails for 1020 where the data have more than one axis. -/
theorem C59_1020_fails (h1 : a.niv ≠ 1) (h : collectDict env globals a = .ok d) (r : NA1020 F)
    (hr : Describes d (.o1020 r)) : ¬ Wf1020 r := by
  intro hw
  obtain ⟨p⟩ := collectDict_parts h
  have e := hr ("NIV", .int r.NIV) (by simp [Obj.attrs, commonAttrs]) (by simp)
  rw [show dictGet? d ("NIV", PyVal.int (F := F) r.NIV).1 = _ from p.items "NIV" (by simp [varItems]),
    show dictGet? (varsDict a p.s) "NIV" = some (.int a.niv) from rfl] at e
  injection e with e
  injection e with e
  rw [hw.niv] at e
  exact h1 (by exact_mod_cast e)

/-- Such data are given format 1020. -/
example : ∃ a d, Ex.Collected Ex.collectEnv (some 1020) Ex.globals
    [Ex.dataVar "temp" [exTime, exHeight] none none, Ex.dataVar "sparse" [exAxis "time" [0, 2]] none none] 1020 a d
      ∧ decide (a.niv = 2) = true :=
  Ex.collected_of (P := fun a _ => decide (a.niv = 2)) (by decide +kernel)

/-- The data of variables with two or more axes. -/
theorem blocks_ok (env : XEnv F) {l : List (XVar F)} {n : Nat} {ns : List Nat} (hs : ∀ v ∈ l, v.shape = n :: ns)
    (hd : ∀ v ∈ l, DataFits v) :
    PyVal.list (l.map (fun v => pyTree (written env v)))
        = .list ((l.map (fun v => rows (written env v))).map (fun col => .list (col.map pyTree))) ∧
      (∀ col ∈ l.map (fun v => rows (written env v)), col.length = n) ∧
      ∀ col ∈ l.map (fun v => rows (written env v)), ∀ t ∈ col, Shaped ns t := by
  have key : ∀ v ∈ l, Shaped (n :: ns) (written env v) := fun v hv => hs v hv ▸ written_shaped env (hd v hv)
  refine ⟨?_, ?_, ?_⟩
  · rw [List.map_map]
    congr 1
    refine List.map_congr_left fun v hv => ?_
    exact (pyTree_rows (key v hv)).1
  · intro col hc
    obtain ⟨v, hv, rfl⟩ := List.mem_map.1 hc
    exact (pyTree_rows (key v hv)).2.1
  · intro col hc
    obtain ⟨v, hv, rfl⟩ := List.mem_map.1 hc
    exact (pyTree_rows (key v hv)).2.2

/-- C59 for 2010, 3010 and 4010. No axis may be empty. With exact arithmetic the bounded axes, of which at most
three values are kept if they are evenly spaced, are rebuilt (C46). -/
theorem C59_2010 (ha : analyse env.x requested vars = .ok (some a))
    (hf : a.ffi = 2010 ∨ a.ffi = 3010 ∨ a.ffi = 4010)
    (h : collectDict env globals a = .ok d) (hdata : ∀ v ∈ a.main ++ a.aux, DataFits v)
    (hfull : ∀ v ∈ a.main, ∀ ax ∈ v.axes, ax.values ≠ []) (ht : TextsFit d) (hk : TopLineKept d a.ffi) :
    ∃ r : NA2010 F, Describes d (.o2010 r) ∧ Wf2010 r ∧ r.c.FFI = a.ffi ∧
      (∃ v ax0 more, a.main.head? = some v ∧ v.axes = ax0 :: more ∧ r.X0 = ax0.values ∧
        mapRes XAxis.bestName v.axes = .ok r.XNAME ∧
        r.NX = more.map (fun ax => (ax.values.length : Int)) ∧
        (∀ (i : Nat) ax x, more[i]? = some ax → r.XB[i]? = some x → x = ax.values.take x.length) ∧
        ∀ add, ExactSteps env.x add → normalizeIndVars add r = .ok { r with XB := more.map XAxis.values }) ∧
      r.V = a.main.map (fun v => rows (written env.x v)) ∧
      r.A = a.aux.map (fun v => leaves (written env.x v)) ∧
      r.v.VMISS = a.main.map (fun v => v.miss.getD env.x.defaultMiss) ∧
      r.v.VSCAL = a.main.map (fun _ => env.x.one) ∧
      r.aux.AMISS = a.aux.map (fun v => v.miss.getD env.x.defaultMiss) ∧
      r.aux.ASCAL = a.aux.map (fun _ => env.x.one) ∧
      mapRes XVar.bestName a.main = .ok r.v.VNAME ∧ mapRes XVar.bestName a.aux = .ok r.aux.ANAME := by
  obtain ⟨p⟩ := collectDict_parts h
  obtain ⟨n, ns, hniv, hmain, haux⟩ := analyse_shapes ha
  have hdims := analyse_dims ha (by omega)
  have hffi : (a.ffi = 2010 ∧ (a.niv : Int) = 2) ∨ (a.ffi = 3010 ∧ (a.niv : Int) = 3) ∨
      (a.ffi = 4010 ∧ (a.niv : Int) = 4) := by
    rcases hf with e | e | e <;> rw [e] at hdims <;> simp [formatDims] at hdims <;> omega
  have n1 : a.ffi ≠ 2110 := by omega
  have n2 : a.ffi ≠ 2310 := by omega
  obtain ⟨c, wc, c1, c2, c3, c4⟩ := p.common ht hk
  obtain ⟨vh, wv, v1, v2, v3, v4, v5⟩ := p.varHdr ht
  obtain ⟨ch, wch, ch1⟩ := p.comHdr ht
  obtain ⟨ah, wa, a1, a2, a3, ⟨names, a4, a5⟩, a6⟩ := p.auxHdr ht
  obtain ⟨_, hind, _⟩ := p.vars_ok
  obtain ⟨q, q1, q2, q3, _, _⟩ := indSection_parts hind
  obtain ⟨hnil, q4, q5, _, _, q6⟩ := q3 n1 n2
  have q2 := q2 n2
  have q6 := q6 (by omega) (by omega) (by omega)
  have hsh := hmain p.v (by rw [p.main]; simp)
  rw [XVar.shape, q.axes, List.map_cons] at hsh
  injection hsh with hlen hmore
  have hA := p.auxData
  rw [hnil] at a1 a2 a3 a5 hA
  simp only [List.map_nil, List.nil_append, List.length_nil] at a1 a2 a3 a5 hA
  obtain ⟨x1, x2, x3, x4, x5⟩ := p.axisItems
  rw [q6] at x1
  rw [q1] at x2
  rw [q2] at x3
  rw [q4] at x4
  rw [q5] at x5
  obtain ⟨k1, k2, k5⟩ := blocks_ok env.x hmain (fun v hv => hdata v (List.mem_append_left _ hv))
  obtain ⟨k3, k4⟩ := columns_ok env.x haux (fun v hv => hdata v (List.mem_append_right _ hv))
  have hl : q.rest.length = q.more.length := mapRes_ok_length _ _ _ q.defs
  have hml : q.more.length = ns.length := by rw [← hmore]; simp
  have hNX : q.rest.map AxisDef.NX = ns := by
    rw [← hmore]
    exact mapRes_project q.defs (fun x _ y hy => (axisDef_facts hy).1)
  have hfacts : ∀ e ∈ q.rest, 1 ≤ e.NX ∧ 1 ≤ e.NXDEF := by
    intro e he
    obtain ⟨ax, hax, hd⟩ := mapRes_mem q.defs he
    have hne := hfull p.v (by rw [p.main]; simp) ax (by rw [q.axes]; exact List.mem_cons_of_mem _ hax)
    have hf := axisDef_facts hd
    refine ⟨?_, hf.2.2.2.2 hne⟩
    rw [hf.1]
    exact List.length_pos_iff.2 hne
  refine ⟨{ c := c, NIV := a.niv, DX := q.dx0 :: q.rest.map AxisDef.DX,
            NX := (q.rest.map AxisDef.NX).map Int.ofNat, NXDEF := (q.rest.map AxisDef.NXDEF).map Int.ofNat,
            X0 := q.ax0.values, XB := q.rest.map AxisDef.X, XNAME := q.name0 :: q.rest.map AxisDef.XNAME,
            v := vh, aux := ah, com := ch, A := a.aux.map (fun v => leaves (written env.x v)),
            V := a.main.map (fun v => rows (written env.x v)) },
    describes_of (l := commonAttrs c a.niv ++ [("DX", pyNums (q.dx0 :: q.rest.map AxisDef.DX)),
        ("NX", pyNats (q.rest.map AxisDef.NX)), ("NXDEF", pyNats (q.rest.map AxisDef.NXDEF)),
        ("X", pyCols (q.ax0.values :: q.rest.map AxisDef.X)),
        ("XNAME", pyStrs (q.name0 :: q.rest.map AxisDef.XNAME))] ++ varAttrs vh
      ++ auxAttrs ah ++ comAttrs ch ++ [("A", pyCols (a.aux.map (fun v => leaves (written env.x v)))),
        ("V", .list ((a.main.map (fun v => rows (written env.x v))).map (fun col => .list (col.map pyTree))))]) ?_ ?_,
    ?_, c1, ?_, rfl, rfl, v2, v3, a2, a3, v4, by rw [a4, a5]⟩
  · simp [Obj.attrs, pyNats]
  · refine partOf_append (partOf_append (partOf_append (partOf_append (partOf_append c4 ?_) v5) a6) ch1) ?_
    · exact partOf_cons x3 (partOf_cons x4 (partOf_cons x5 (partOf_cons x1 (partOf_cons x2 (partOf_nil d)))))
    · exact partOf_cons (by rw [hA, k3]) (partOf_cons (by rw [p.data, k1]) (partOf_nil d))
  · exact
      { common := wc, ffi := by rw [c1]; exact hffi,
        dx := by simp [hl, hml, hniv], nx := by simp [hl, hml, hniv],
        nx_pos := by
          intro m hm
          simp only [List.map_map, List.mem_map, Function.comp] at hm
          obtain ⟨e, he, rfl⟩ := hm
          have := (hfacts e he).1
          show (1 : Int) ≤ ((e.NX : Nat) : Int)
          omega,
        nxdef_pos := by
          intro m hm
          simp only [List.map_map, List.mem_map, Function.comp] at hm
          obtain ⟨e, he, rfl⟩ := hm
          have := (hfacts e he).2
          show (1 : Int) ≤ ((e.NXDEF : Nat) : Int)
          omega,
        nxdef := by simp [hl, hml, hniv],
        axes := by
          simp only [List.map_map]
          refine List.map_congr_left fun e he => ?_
          obtain ⟨ax, hax, hd⟩ := mapRes_mem q.defs he
          have := (axisDef_facts hd).2.1
          simp only [Function.comp, this]
          rfl,
        xname := by simp [hl, hml, hniv],
        xnames := ht.names "XNAME" (by simp) _ x2, vars := wv, aux := wa, com := wch,
        aux_data := ⟨by simp [a1], by rw [hlen]; exact k4⟩,
        data := ⟨by simp [v1], by rw [hlen]; exact k2⟩,
        shape := by
          have : ((q.rest.map AxisDef.NX).map Int.ofNat).map Int.toNat = ns := by
            rw [List.map_map]
            have : (Int.toNat ∘ Int.ofNat) = id := by funext k; rfl
            rw [this, List.map_id, hNX]
          rw [this]
          exact k5 }
  · refine ⟨p.v, q.ax0, q.more, by rw [p.main]; rfl, q.axes, rfl, ?_, ?_, ?_, ?_⟩
    · rw [q.axes, mapRes, q.name,
        mapRes_project_ok q.defs (g := AxisDef.XNAME) (fun x _ y hy => (axisDef_facts hy).2.2.1)]
      rfl
    · rw [hNX, ← hmore, List.map_map]
      rfl
    · intro i ax x hax hx
      rw [List.getElem?_map] at hx
      cases hi : q.rest[i]? with
      | none => rw [hi] at hx; cases hx
      | some e =>
        rw [hi] at hx
        injection hx with hx
        have hd := mapRes_get q.defs hax hi
        have := axisDef_facts hd
        rw [← hx, this.2.1]
        exact this.2.2.2.1
    · intro add he
      refine axisDefs_normalize he q.defs (d0 := q.dx0) (by simp only [List.map_map]; rfl)
        (by simp only [List.map_map]; rfl) rfl rfl ?_
      show (a.niv : Int) = q.more.length + 1
      omega

/-- The data of variables with two axes. -/
theorem lines_ok (env : XEnv F) {l : List (XVar F)} {n m : Nat} (hs : ∀ v ∈ l, v.shape = [n, m])
    (hd : ∀ v ∈ l, DataFits v) :
    PyVal.list (l.map (fun v => pyTree (written env v)))
        = .list ((l.map (fun v => (rows (written env v)).map leaves)).map pyCols) ∧
      ∀ vn ∈ l.map (fun v => (rows (written env v)).map leaves),
        vn.map (fun l => (l.length : Int)) = List.replicate n (m : Int) := by
  have key : ∀ v ∈ l, Shaped [n, m] (written env v) := fun v hv => hs v hv ▸ written_shaped env (hd v hv)
  refine ⟨?_, ?_⟩
  · rw [List.map_map]
    congr 1
    refine List.map_congr_left fun v hv => ?_
    obtain ⟨k1, k2, k3⟩ := pyTree_rows (key v hv)
    rw [k1, Function.comp, pyCols, List.map_map]
    congr 1
    exact List.map_congr_left fun t ht => (pyTree_one (k3 t ht)).1
  · intro vn hvn
    obtain ⟨v, hv, rfl⟩ := List.mem_map.1 hvn
    obtain ⟨k1, k2, k3⟩ := pyTree_rows (key v hv)
    rw [List.map_map]
    refine List.eq_replicate_iff.2 ⟨by simp [k2], ?_⟩
    intro b hb
    obtain ⟨t, ht, rfl⟩ := List.mem_map.1 hb
    simp only [Function.comp, (pyTree_one (k3 t ht)).2]

/-- The assumptions are met: two variables on two axes and one on the first axis only. -/
example : ∃ a d, Ex.Collected Ex.collectEnv none Ex.globals
    [Ex.dataVar "temp" [exTime, exHeight] (some 1) none, Ex.dataVar "pressure" [exTime] none none,
     Ex.dataVar "wind" [exTime, exHeight] (some 0) none] 2010 a d ∧
      decide (a.main.length = 2 ∧ a.aux.length = 1) = true :=
  Ex.collected_of (P := fun a _ => decide (a.main.length = 2 ∧ a.aux.length = 1)) (by decide +kernel)

/-- And by a variable on three axes. -/
example : ∃ a d, Ex.Collected Ex.collectEnv none Ex.globals
    [Ex.dataVar "temp" [exTime, exHeight, exAxis "level" [1, 3, 4]] none none] 3010 a d ∧
      decide (a.main.length = 1) = true :=
  Ex.collected_of (P := fun a _ => decide (a.main.length = 1)) (by decide +kernel)

/-- C59 for 2110. `count` says how a count among the data is read back. All the marks have the same number of
values. The first auxiliary variable holds these numbers. -/
theorem C59_2110 (count : F → Option Int)
    (hcount : ∀ v ∈ a.main, ∀ ax ∈ v.axes.drop 1, count (env.x.ofNat ax.values.length) = some (ax.values.length : Int))
    (ha : analyse env.x requested vars = .ok (some a)) (hf : a.ffi = 2110)
    (h : collectDict env globals a = .ok d) (hdata : ∀ v ∈ a.main ++ a.aux, DataFits v) (ht : TextsFit d)
    (hk : TopLineKept d 2110) :
    ∃ r : NA2110 F, Describes d (.o2110 r) ∧ Wf2110 count r ∧
      (∃ v ax0 ax1, a.main.head? = some v ∧ v.axes = [ax0, ax1] ∧ mapRes XAxis.bestName v.axes = .ok r.XNAME ∧
        r.X = ax0.values.map (fun x => (x, ax1.values)) ∧
        r.A = ax0.values.map (fun _ => env.x.ofNat ax1.values.length)
          :: a.aux.map (fun v => leaves (written env.x v))) ∧
      r.V = a.main.map (fun v => (rows (written env.x v)).map leaves) ∧
      r.v.VMISS = a.main.map (fun v => v.miss.getD env.x.defaultMiss) ∧
      r.v.VSCAL = a.main.map (fun _ => env.x.one) ∧
      r.aux.AMISS = env.auxMiss :: a.aux.map (fun v => v.miss.getD env.x.defaultMiss) ∧
      r.aux.ASCAL = env.x.one :: a.aux.map (fun _ => env.x.one) ∧
      mapRes XVar.bestName a.main = .ok r.v.VNAME ∧
      ∃ names, mapRes XVar.bestName a.aux = .ok names ∧ r.aux.ANAME.tail = names := by
  obtain ⟨p⟩ := collectDict_parts h
  obtain ⟨n, ns, hniv, hmain, haux⟩ := analyse_shapes ha
  have hdims := analyse_dims ha (by rw [hf]; decide)
  rw [hf] at hdims
  have hn1 : ns.length = 1 := by simp [formatDims] at hdims; omega
  obtain ⟨m, rfl⟩ := List.length_eq_one_iff.1 hn1
  obtain ⟨c, wc, c1, c2, c3, c4⟩ := p.common ht (by rw [hf]; exact hk)
  obtain ⟨vh, wv, v1, v2, v3, v4, v5⟩ := p.varHdr ht
  obtain ⟨ch, wch, ch1⟩ := p.comHdr ht
  obtain ⟨ah, wa, a1, a2, a3, ⟨names, a4, a5⟩, a6⟩ := p.auxHdr ht
  obtain ⟨_, hind, _⟩ := p.vars_ok
  obtain ⟨q, q1, q2, _, q3, _⟩ := indSection_parts hind
  obtain ⟨ax1, more1, q4, q5, q6, _, q7⟩ := q3 hf
  have q2 := q2 (by rw [hf]; decide)
  have hsh := hmain p.v (by rw [p.main]; simp)
  rw [XVar.shape, q.axes, q4, List.map_cons, List.map_cons] at hsh
  injection hsh with hlen hsh2
  injection hsh2 with hlen1 hmore1
  have hmore1 := List.map_eq_nil_iff.1 hmore1
  subst hmore1
  have hrest : ∃ e, q.rest = [e] ∧ axisDef env.x ax1 = .ok e := by
    have := q.defs
    rw [q4] at this
    obtain ⟨e, g1, g2⟩ := ok_of_bind this
    injection g2 with g2
    exact ⟨e, g2.symm, g1⟩
  obtain ⟨e, hrest, he⟩ := hrest
  have hA := p.auxData
  rw [q7] at a1 a2 a3 a5 hA
  simp only [List.map_cons, List.map_nil, List.cons_append, List.nil_append, List.length_cons,
    List.length_nil] at a1 a2 a3 a5 hA
  obtain ⟨x1, x2, x3, x4, _⟩ := p.axisItems
  rw [q6] at x1
  rw [q1, hrest] at x2
  rw [q2, hrest] at x3
  rw [q5] at x4 hA
  obtain ⟨k1, k2⟩ := lines_ok env.x hmain (fun v hv => hdata v (List.mem_append_left _ hv))
  obtain ⟨k3, k4⟩ := columns_ok env.x haux (fun v hv => hdata v (List.mem_append_right _ hv))
  have hcol : (q.ax0.values.map (fun _ => ax1.values.length)).map env.x.ofNat
      = q.ax0.values.map (fun _ => env.x.ofNat ax1.values.length) := by rw [List.map_map]; rfl
  have hA2 : dictGet? d "A" = some (pyCols (q.ax0.values.map (fun _ => env.x.ofNat ax1.values.length)
      :: a.aux.map (fun v => leaves (written env.x v)))) := by
    rw [hA, hcol]
    have k3' : a.aux.map (fun v => pyTree (written env.x v))
        = (a.aux.map (fun v => leaves (written env.x v))).map pyNums := by
      injection k3
    rw [k3']
    rfl
  have hrep : (q.ax0.values.map (fun _ => ax1.values.length)).map Int.ofNat = List.replicate n (m : Int) := by
    rw [List.map_map]
    refine List.eq_replicate_iff.2 ⟨by simp [hlen], ?_⟩
    intro b hb
    obtain ⟨t, ht, rfl⟩ := List.mem_map.1 hb
    simp only [Function.comp, hlen1]
    rfl
  refine ⟨{ c := c, NIV := a.niv, DX := [q.dx0, e.DX], XNAME := [q.name0, e.XNAME], v := vh, aux := ah, com := ch,
            NX := (q.ax0.values.map (fun _ => ax1.values.length)).map Int.ofNat,
            X := q.ax0.values.map (fun x => (x, ax1.values)),
            A := q.ax0.values.map (fun _ => env.x.ofNat ax1.values.length)
              :: a.aux.map (fun v => leaves (written env.x v)),
            V := a.main.map (fun v => (rows (written env.x v)).map leaves) },
    describes_of (l := attrs2110 { c := c, NIV := a.niv, DX := [q.dx0, e.DX], XNAME := [q.name0, e.XNAME], v := vh,
                                   aux := ah, com := ch,
                                   NX := (q.ax0.values.map (fun _ => ax1.values.length)).map Int.ofNat,
                                   X := q.ax0.values.map (fun x => (x, ax1.values)),
                                   A := q.ax0.values.map (fun _ => env.x.ofNat ax1.values.length)
                                     :: a.aux.map (fun v => leaves (written env.x v)),
                                   V := a.main.map (fun v => (rows (written env.x v)).map leaves) }) rfl ?_,
    ?_, ?_, rfl, v2, v3, a2, a3, v4, names, a4, by rw [a5]; rfl⟩
  · unfold attrs2110
    refine partOf_append (partOf_append (partOf_append (partOf_append (partOf_append c4 ?_) v5) a6) ch1) ?_
    · exact partOf_cons x3 (partOf_cons x2 (partOf_nil d))
    · exact partOf_cons x4 (partOf_cons x1 (partOf_cons hA2 (partOf_cons (by rw [p.data, k1]) (partOf_nil d))))
  · exact
      { common := wc, ffi := by rw [c1, hf], niv := by simp [hniv], dx := rfl, xname := rfl,
        xnames := ht.names "XNAME" (by simp) _ x2, vars := wv, aux := wa, com := wch,
        marks := by simp only [List.map_map]; rfl,
        aux_data := ⟨by simp [a1]; omega, by
          intro col hc
          rw [List.length_map]
          rcases List.mem_cons.1 hc with rfl | hc
          · simp
          · rw [hlen]; exact k4 col hc⟩,
        counts := by
          simp only [List.head?_cons, Option.map_some, List.map_map]
          congr 1
          refine List.map_congr_left fun x _ => ?_
          exact hcount p.v (by rw [p.main]; simp) ax1 (by rw [q.axes, q4]; simp),
        data := ⟨by simp [v1], by simp only [hrep]; exact k2⟩ }
  · refine ⟨p.v, q.ax0, ax1, by rw [p.main]; rfl, by rw [q.axes, q4], ?_, rfl, rfl⟩
    rw [q.axes, q4, mapRes, q.name, mapRes, (axisDef_facts he).2.2.1]
    rfl

/-- The assumptions are met. -/
example : (∀ n, intCodec.trunc (exXEnv.ofNat n) = some (n : Int)) ∧
    ∃ a d, Ex.Collected Ex.collectEnv (some 2110) Ex.globals
      [Ex.dataVar "temp" [exTime, exHeight] none none, Ex.dataVar "pressure" [exTime] none none] 2110 a d ∧
        decide (a.aux.length = 1) = true :=
  ⟨fun _ => rfl, Ex.collected_of (P := fun a _ => decide (a.aux.length = 1)) (by decide +kernel)⟩

theorem pyNums_inj {l l' : List F} (h : pyNums l = pyNums l') : l = l' := by
  unfold pyNums at h
  injection h with h
  exact List.map_injective_iff.2 (fun a b e => by injection e) h

theorem pyPairs_length {l l' : List (F × List F)} (h : pyPairs l = pyPairs l') : l.length = l'.length := by
  unfold pyPairs at h
  injection h with h
  simpa using congrArg List.length h

/-- C59 fails for 2310: the dictionary never describes a well-formed file, whatever the data. `DX` has no entry for
the unbounded axis. -/
theorem C59_2310_fails (hf : a.ffi = 2310) (h : collectDict env globals a = .ok d) (count : F → Option Int)
    (incr : F → Option F) (r : NA2110 F) (hr : Describes d (.o2310 r)) : ¬ Wf2310 count incr r := by
  intro hw
  obtain ⟨p⟩ := collectDict_parts h
  obtain ⟨_, hind, _⟩ := p.vars_ok
  obtain ⟨q, _, _, _, _, q3⟩ := indSection_parts hind
  obtain ⟨ax1, more1, inc, first, _, _, _, _, q5, q6, _⟩ := q3 hf
  obtain ⟨x1, _, x3, _, _⟩ := p.axisItems
  have hX := hr ("X", pyPairs r.X) (by simp [Obj.attrs, attrs2110]) (by simp)
  have hD := hr ("DX", pyNums r.DX) (by simp [Obj.attrs, attrs2110]) (by simp)
  rw [x1, q5] at hX
  rw [x3, q6] at hD
  injection hX with hX
  injection hD with hD
  have l1 := pyPairs_length hX
  have l2 := congrArg List.length (pyNums_inj hD)
  obtain ⟨a0, a1, a2, as, hA, _, _, d0, ds, e1, e2⟩ := hw.aux3
  have l3 := hw.aux_data.2 a2 (by rw [hA]; simp)
  have l4 := congrArg List.length e2
  rw [e1] at l2
  simp only [List.length_map, List.length_cons] at l1 l2 l4
  omega

/-- C59 fails for 2310: the first number of `DX`, which the writer puts into the header as the increment of the
unbounded axis, is the increment of the second axis. -/
theorem C59_2310_increment (hf : a.ffi = 2310) (h : collectDict env globals a = .ok d) :
    ∃ v ax0 ax1 more inc, a.main.head? = some v ∧ v.axes = ax0 :: ax1 :: more ∧
      getInterval env.x.sub ax1.values 0 1 = .ok inc ∧
      dictGet? d "DX" = some (pyNums (ax0.values.map (fun _ => inc))) := by
  obtain ⟨p⟩ := collectDict_parts h
  obtain ⟨_, hind, _⟩ := p.vars_ok
  obtain ⟨q, _, _, _, _, q3⟩ := indSection_parts hind
  obtain ⟨ax1, more1, inc, first, q4, q5, _, _, _, q6, _⟩ := q3 hf
  obtain ⟨_, _, x3, _, _⟩ := p.axisItems
  exact ⟨p.v, q.ax0, ax1, more1, inc, by rw [p.main]; rfl, by rw [q.axes, q4], q5, by rw [x3, q6]⟩

/-- Format 2310 is chosen on request. -/
example : ∃ a d, Ex.Collected Ex.collectEnv (some 2310) Ex.globals
    [Ex.dataVar "temp" [exTime, exHeight] none none] 2310 a d ∧ decide (a.main.length = 1) = true :=
  Ex.collected_of (P := fun a _ => decide (a.main.length = 1)) (by decide +kernel)

/-- C59 for 2310, in part. The dictionary describes an object that differs from a well-formed one only in what is never
written: all but the first number of `DX`, and the values of the second axis beside each mark. So the file is the one
of the well-formed object, which has the axes, data, missing values and names of the variables. `count` and `incr` say
how counts and increments among the data are read back. What is missing: the increment of the first axis, see
`C59_2310_increment`; the dictionary itself is not well-formed, see `C59_2310_fails`. -/
theorem C59_2310_partial (count : F → Option Int) (incr : F → Option F)
    (hcount : ∀ v ∈ a.main, ∀ ax ∈ v.axes.drop 1, count (env.x.ofNat ax.values.length) = some (ax.values.length : Int))
    (hincr : ∀ v ∈ a.main, ∀ ax ∈ v.axes.drop 1, ∀ i, getInterval env.x.sub ax.values 0 1 = .ok i → (incr i).isSome)
    (ha : analyse env.x requested vars = .ok (some a)) (hf : a.ffi = 2310)
    (h : collectDict env globals a = .ok d) (hdata : ∀ v ∈ a.main ++ a.aux, DataFits v)
    (hfull : ∀ v ∈ a.main, ∀ ax ∈ v.axes, ax.values ≠ []) (ht : TextsFit d) (hk : TopLineKept d 2310) :
    ∃ r r' : NA2110 F, Describes d (.o2310 r) ∧ Wf2310 count incr r' ∧
      (r' = { r with X := r'.X, DX := r'.DX } ∧ r'.X.map Prod.fst = r.X.map Prod.fst ∧ r'.DX.head? = r.DX.head?) ∧
      (∀ fe nh, (write2310 fe nh r').2 = (write2310 fe nh r).2) ∧
      (∃ v ax0 ax1 first inc, a.main.head? = some v ∧ v.axes = [ax0, ax1] ∧
        mapRes XAxis.bestName v.axes = .ok r'.XNAME ∧ r'.X.map Prod.fst = ax0.values ∧
        ax1.values.head? = some first ∧ getInterval env.x.sub ax1.values 0 1 = .ok inc ∧
        r'.A = ax0.values.map (fun _ => env.x.ofNat ax1.values.length) :: ax0.values.map (fun _ => first)
          :: ax0.values.map (fun _ => inc) :: a.aux.map (fun v => leaves (written env.x v))) ∧
      r'.V = a.main.map (fun v => (rows (written env.x v)).map leaves) ∧
      r'.v.NV = a.main.length ∧
      r'.v.VMISS = a.main.map (fun v => v.miss.getD env.x.defaultMiss) ∧
      r'.v.VSCAL = a.main.map (fun _ => env.x.one) ∧
      r'.aux.AMISS = env.auxMiss :: env.auxMiss :: env.auxMiss :: a.aux.map (fun v => v.miss.getD env.x.defaultMiss) ∧
      r'.aux.ASCAL = env.x.one :: env.x.one :: env.x.one :: a.aux.map (fun _ => env.x.one) ∧
      mapRes XVar.bestName a.main = .ok r'.v.VNAME ∧
      ∃ names, mapRes XVar.bestName a.aux = .ok names ∧ r'.aux.ANAME.drop 3 = names := by
  obtain ⟨p⟩ := collectDict_parts h
  obtain ⟨n, ns, hniv, hmain, haux⟩ := analyse_shapes ha
  have hdims := analyse_dims ha (by rw [hf]; decide)
  rw [hf] at hdims
  have hn1 : ns.length = 1 := by simp [formatDims] at hdims; omega
  obtain ⟨m, rfl⟩ := List.length_eq_one_iff.1 hn1
  obtain ⟨c, wc, c1, c2, c3, c4⟩ := p.common ht (by rw [hf]; exact hk)
  obtain ⟨vh, wv, v1, v2, v3, v4, v5⟩ := p.varHdr ht
  obtain ⟨ch, wch, ch1⟩ := p.comHdr ht
  obtain ⟨ah, wa, a1, a2, a3, ⟨names, a4, a5⟩, a6⟩ := p.auxHdr ht
  obtain ⟨_, hind, _⟩ := p.vars_ok
  obtain ⟨q, q1, _, _, _, q3⟩ := indSection_parts hind
  obtain ⟨ax1, more1, inc, first, q4, qi, qf, q5, q6, qd, q7⟩ := q3 hf
  have hv : p.v ∈ a.main := by rw [p.main]; simp
  have hsh := hmain p.v hv
  rw [XVar.shape, q.axes, q4, List.map_cons, List.map_cons] at hsh
  injection hsh with hlen hsh2
  injection hsh2 with hlen1 hmore1
  have hmore1 := List.map_eq_nil_iff.1 hmore1
  subst hmore1
  have hne : q.ax0.values ≠ [] := hfull p.v hv q.ax0 (by rw [q.axes]; simp)
  have qf := qf hne
  have hax1 : ax1 ∈ p.v.axes.drop 1 := by rw [q.axes, q4]; simp
  have hrest : ∃ e, q.rest = [e] ∧ axisDef env.x ax1 = .ok e := by
    have := q.defs
    rw [q4] at this
    obtain ⟨e, g1, g2⟩ := ok_of_bind this
    injection g2 with g2
    exact ⟨e, g2.symm, g1⟩
  obtain ⟨e, hrest, he⟩ := hrest
  have hA := p.auxData
  rw [q7] at a1 a2 a3 a5 hA
  simp only [List.map_cons, List.map_nil, List.cons_append, List.nil_append, List.length_cons,
    List.length_nil] at a1 a2 a3 a5 hA
  obtain ⟨x1, x2, x3, x4, _⟩ := p.axisItems
  rw [q6] at x1
  rw [q1, hrest] at x2
  rw [qd] at x3 hA
  rw [q5] at x4 hA
  obtain ⟨k1, k2⟩ := lines_ok env.x hmain (fun v hv => hdata v (List.mem_append_left _ hv))
  obtain ⟨k3, k4⟩ := columns_ok env.x haux (fun v hv => hdata v (List.mem_append_right _ hv))
  have hcol : (q.ax0.values.map (fun _ => ax1.values.length)).map env.x.ofNat
      = q.ax0.values.map (fun _ => env.x.ofNat ax1.values.length) := by rw [List.map_map]; rfl
  have hA2 : dictGet? d "A" = some (pyCols (q.ax0.values.map (fun _ => env.x.ofNat ax1.values.length)
      :: q.ax0.values.map (fun _ => first) :: q.ax0.values.map (fun _ => inc)
      :: a.aux.map (fun v => leaves (written env.x v)))) := by
    rw [hA, hcol]
    have k3' : a.aux.map (fun v => pyTree (written env.x v))
        = (a.aux.map (fun v => leaves (written env.x v))).map pyNums := by
      injection k3
    rw [k3']
    rfl
  have hrep : (q.ax0.values.map (fun _ => ax1.values.length)).map Int.ofNat = List.replicate n (m : Int) := by
    rw [List.map_map]
    refine List.eq_replicate_iff.2 ⟨by simp [hlen], ?_⟩
    intro b hb
    obtain ⟨t, ht, rfl⟩ := List.mem_map.1 hb
    simp only [Function.comp, hlen1]
    rfl
  have hm2 : 2 ≤ m := by
    obtain ⟨y, g1, _⟩ := ok_of_bind qi
    have : 1 < ax1.values.length := by
      unfold idx at g1
      by_contra hc
      rw [List.getElem?_eq_none (by omega)] at g1
      cases g1
    omega
  obtain ⟨inc', hinc'⟩ := Option.isSome_iff_exists.1 (hincr p.v hv ax1 hax1 inc qi)
  let r : NA2110 F :=
    { c := c, NIV := a.niv, DX := q.ax0.values.map (fun _ => inc), XNAME := [q.name0, e.XNAME], v := vh, aux := ah,
      com := ch, NX := (q.ax0.values.map (fun _ => ax1.values.length)).map Int.ofNat,
      X := q.ax0.values.map (fun x => (x, ax1.values)),
      A := q.ax0.values.map (fun _ => env.x.ofNat ax1.values.length) :: q.ax0.values.map (fun _ => first)
        :: q.ax0.values.map (fun _ => inc) :: a.aux.map (fun v => leaves (written env.x v)),
      V := a.main.map (fun v => (rows (written env.x v)).map leaves) }
  let r' : NA2110 F :=
    { r with X := q.ax0.values.map (fun x => (x, [first])), DX := inc :: q.ax0.values.map (fun _ => inc') }
  have hX : r'.X.map Prod.fst = r.X.map Prod.fst := by
    simp only [r, r', List.map_map]; rfl
  have hD : r'.DX.head? = r.DX.head? := by
    obtain ⟨y, l, hl⟩ := List.exists_cons_of_ne_nil hne
    simp only [r, r', hl]; rfl
  refine ⟨r, r', describes_of (l := attrs2110 r) rfl ?_, ?_, ⟨rfl, hX, hD⟩,
    fun fe nh => write2310_same fe nh rfl hX hD, ?_, rfl, v1, v2, v3, a2, a3, v4, names, a4, ?_⟩
  · unfold attrs2110
    refine partOf_append (partOf_append (partOf_append (partOf_append (partOf_append c4 ?_) v5) a6) ch1) ?_
    · exact partOf_cons x3 (partOf_cons x2 (partOf_nil d))
    · exact partOf_cons x4 (partOf_cons x1 (partOf_cons hA2 (partOf_cons (by rw [p.data, k1]) (partOf_nil d))))
  · exact
      { common := wc, ffi := by rw [← hf]; exact c1, niv := by simp [r', r, hniv], xname := rfl,
        xnames := ht.names "XNAME" (by simp) _ x2, vars := wv, aux := wa, com := wch,
        nx_pos := by
          intro x hx
          have hx : x ∈ (q.ax0.values.map (fun _ => ax1.values.length)).map Int.ofNat := hx
          rw [hrep] at hx
          rw [List.eq_of_mem_replicate hx]
          omega,
        aux_data := ⟨by simp [r', r, a1]; omega, by
          intro col hc
          have hc : col ∈ q.ax0.values.map (fun _ => env.x.ofNat ax1.values.length)
            :: q.ax0.values.map (fun _ => first) :: q.ax0.values.map (fun _ => inc)
            :: a.aux.map (fun v => leaves (written env.x v)) := hc
          show col.length = (q.ax0.values.map (fun x => (x, [first]))).length
          rw [List.length_map]
          simp only [List.mem_cons] at hc
          rcases hc with rfl | rfl | rfl | hc
          · simp
          · simp
          · simp
          · rw [hlen]; exact k4 col hc⟩,
        aux3 := by
          refine ⟨_, _, _, _, rfl, ?_, ?_, inc, _, rfl, ?_⟩
          · simp only [r', r, List.map_map]
            refine List.map_congr_left fun x _ => ?_
            exact hcount p.v hv ax1 hax1
          · simp only [r', List.map_map]
            rfl
          · simp only [List.map_map]
            exact List.map_congr_left fun x _ => hinc',
        data := ⟨by simp [r', r, v1], by
          show ∀ vn ∈ _, _ = (q.ax0.values.map (fun _ => ax1.values.length)).map Int.ofNat
          rw [hrep]; exact k2⟩ }
  · refine ⟨p.v, q.ax0, ax1, first, inc, by rw [p.main]; rfl, by rw [q.axes, q4], ?_, ?_, ?_, qi, rfl⟩
    · rw [q.axes, q4, mapRes, q.name, mapRes, (axisDef_facts he).2.2.1]
      rfl
    · simp [r', Function.comp_def]
    · unfold idx at qf
      rw [List.head?_eq_getElem?]
      split at qf
      · rename_i h0; rw [h0]; injection qf with qf; rw [qf]
      · cases qf
  · show ah.ANAME.drop 3 = names
    rw [a5]; rfl

/-! ### C59 and the file -/

/-- C59 with C06: writing what the dictionary describes and reading the file gives the axis and the data, rounded
by the format. -/
theorem C59_file_1001 {fe : Env F} {q : F → F} (hcd : fe.cd.Lawful q) (hann : fe.ann = none)
    (hd : WsDelim fe.delim) (ha : analyse env.x requested vars = .ok (some a)) (hf : a.ffi = 1001)
    (h : collectDict env globals a = .ok d) (hdata : ∀ v ∈ a.main, DataFits v) (ht : TextsFit d)
    (hk : TopLineKept d 1001) :
    ∃ r r', Describes d (.o1001 r) ∧ (write1001 fe false r).err = none ∧
      read1001 fe.cd 0 (write1001 fe false r).text = .ok r' ∧
      (∃ v, a.main.head? = some v ∧ v.axes.map (fun ax => ax.values.map q) = [r'.X]) ∧
      r'.V = a.main.map (fun v => (leaves (written env.x v)).map q) ∧
      mapRes XVar.bestName a.main = .ok r'.v.VNAME := by
  obtain ⟨r, h1, h2, ⟨v, h3, h4, _⟩, h5, h6, h7, h8⟩ := C59_1001 ha hf h hdata ht hk
  obtain ⟨w1, w2⟩ := C06_roundtrip_1001 hcd hann hd h2
  refine ⟨r, _, h1, w1, w2, ⟨v, h3, ?_⟩, ?_, h8⟩
  · have e : (v.axes.map XAxis.values).map (List.map q) = [r.X.map q] := by rw [h4]; rfl
    rw [List.map_map] at e
    exact e
  · show r.V.map _ = _
    rw [h5, List.map_map]
    rfl

/-- Normalising looks at few of the attributes. -/
theorem normalizeIndVars_same {add : F → F → F} {r s : NA2010 F} {xs : List (List F)}
    (h : normalizeIndVars add r = .ok { r with XB := xs }) (h1 : s.NIV = r.NIV) (h2 : s.NX = r.NX)
    (h3 : s.NXDEF = r.NXDEF) (h4 : s.XB = r.XB) (h5 : s.DX = r.DX) :
    normalizeIndVars add s = .ok { s with XB := xs } := by
  unfold normalizeIndVars at h ⊢
  obtain ⟨ys, g1, g2⟩ := ok_of_bind h
  rw [h1, h2, h3, h4, h5, g1]
  injection g2 with g2
  have := congrArg NA2010.XB g2
  simp only at this
  simp only [ok_bind, this]

/-- C46, in part: for exact arithmetic, and values that the number format of the file keeps. The axes come back
from the file, after it is normalised, with all their values. What is missing: with rounding the sums may differ
from the values, see `C46_rounding_fails`; the format may round the values; for 3010 and 4010 `NXDEF` has to read
the same backwards (C09). -/
theorem C46_partial {fe : Env F} {q : F → F} (hcd : fe.cd.Lawful q) (hann : fe.ann = none)
    (hd : WsDelim fe.delim) {add : F → F → F} (hexact : ExactSteps env.x add)
    (ha : analyse env.x requested vars = .ok (some a)) (hf : a.ffi = 2010 ∨ a.ffi = 3010 ∨ a.ffi = 4010)
    (h : collectDict env globals a = .ok d) (hdata : ∀ v ∈ a.main ++ a.aux, DataFits v)
    (hfull : ∀ v ∈ a.main, ∀ ax ∈ v.axes, ax.values ≠ []) (ht : TextsFit d) (hk : TopLineKept d a.ffi)
    (hq : ∀ v ∈ a.main, ∀ ax ∈ v.axes, ∀ x ∈ ax.values, q x = x)
    (hpal : a.ffi = 2010 ∨ ∀ l, dictGet? d "NXDEF" = some (pyInts l) → l.reverse = l) :
    ∃ r r' s, Describes d (.o2010 r) ∧ (write2010 fe false r).2.err = none ∧
      read2010 fe.cd 0 (write2010 fe false r).2.text = .ok r' ∧ normalizeIndVars add r' = .ok s ∧
      (∃ v, a.main.head? = some v ∧ v.axes.map XAxis.values = s.X0 :: s.XB) ∧
      s.V = a.main.map (fun v => (rows (written env.x v)).map (mapTree q)) ∧
      s.A = a.aux.map (fun v => (leaves (written env.x v)).map q) := by
  obtain ⟨r, h1, h2, hffi, ⟨v, ax0, more, h3, h4, h5, h5b, h6, h7, h8⟩, h9, h10, _⟩ :=
    C59_2010 ha hf h hdata hfull ht hk
  have hpal2 : r.NXDEF.reverse = r.NXDEF := by
    rcases hpal with e | e
    · have hniv : r.NIV = 2 := by
        rcases h2.ffi with g | g | g
        · exact g.2
        · omega
        · omega
      have hl : r.NXDEF.length = 1 := by have := h2.nxdef; omega
      obtain ⟨x, hx⟩ := List.length_eq_one_iff.1 hl
      rw [hx]; rfl
    · exact e _ (h1 ("NXDEF", pyInts r.NXDEF) (by simp [Obj.attrs]) (by simp))
  obtain ⟨w1, w2⟩ := C09_roundtrip_partial hcd hann hd h2 hpal2
  have hv : v ∈ a.main := List.mem_of_mem_head? h3
  have hX0 : r.X0.map q = r.X0 := by
    rw [h5]
    exact (List.map_congr_left (fun x hx => hq v hv ax0 (by rw [h4]; simp) x hx)).trans (List.map_id _)
  have hXB : r.XB.map (fun x => x.map q) = r.XB := by
    refine (List.map_congr_left (g := id) fun x hx => ?_).trans (List.map_id _)
    obtain ⟨i, hi⟩ := List.mem_iff_getElem?.1 hx
    have hlen : r.XB.length = more.length := by
      have e1 := congrArg List.length h2.axes
      have e2 := congrArg List.length h6
      have e3 := h2.nx
      have e4 := h2.nxdef
      simp only [List.length_map] at e1 e2
      omega
    have him : i < more.length := by
      rw [← hlen]
      exact (List.getElem?_eq_some_iff.1 hi).1
    have h7' := h7 i more[i] x (List.getElem?_eq_getElem him) hi
    refine (List.map_congr_left (g := id) fun y hy => ?_).trans (List.map_id _)
    refine hq v hv more[i] (by rw [h4]; exact List.mem_cons_of_mem _ (List.getElem_mem him)) y ?_
    rw [h7'] at hy
    exact List.mem_of_mem_take hy
  refine ⟨r, _, _, h1, w1, w2, normalizeIndVars_same (h8 add hexact) rfl rfl rfl hXB rfl, ⟨v, h3, ?_⟩, ?_, ?_⟩
  · show _ = r.X0.map q :: more.map XAxis.values
    rw [h4, hX0, h5]
    rfl
  · show r.V.map _ = _
    rw [h9, List.map_map]
    rfl
  · show r.A.map _ = _
    rw [h10, List.map_map]
    rfl

/-- The assumptions are met by whole numbers. -/
example : intCodec.Lawful id ∧ Ex.env.ann = none ∧ WsDelim Ex.env.delim ∧ ExactSteps Ex.collectEnv.x (· + ·) ∧
    (∀ x : Int, id x = x) ∧
    ∃ a d, Ex.Collected Ex.collectEnv none Ex.globals
      [Ex.dataVar "temp" [exTime, exHeight] (some 1) none, Ex.dataVar "pressure" [exTime] none none] 2010 a d ∧
        decide (a.aux.length = 1) = true :=
  ⟨Ex.intCodec_lawful, rfl, Ex.env_delim, fun x y d h => by
    have : y - x = d := of_decide_eq_true h
    show x + d = y
    omega, fun _ => rfl,
    Ex.collected_of (P := fun a _ => decide (a.aux.length = 1)) (by decide +kernel)⟩

/-- C46 fails with rounding: in decimal arithmetic with two digits the differences of the axis -320, -210, -99, 12
all are 110, so three values and the increment are stored, and the last two values come back as -100 and 10. -/
theorem C46_rounding_fails :
    ∃ a d, Ex.Collected Ex.roundEnv none Ex.globals
        [Ex.dataVar "temp" [exTime, exAxis "height" [-320, -210, -99, 12]] none none] 2010 a d ∧
      ∀ r, Describes d (.o2010 r) → r.NIV = 2 →
        ∃ s, normalizeIndVars (fun x y => Ex.round2 (x + y)) r = .ok s ∧ s.XB = [[-320, -210, -100, 10]] := by
  obtain ⟨a, d, h, hP⟩ := Ex.collected_of (env := Ex.roundEnv) (requested := none) (globals := Ex.globals)
    (vars := [Ex.dataVar "temp" [exTime, exAxis "height" [-320, -210, -99, 12]] none none]) (ffi := 2010)
    (P := fun _ d => decide (
      (dictGet? d "NX").bind Ex.ints = some [4] ∧ (dictGet? d "NXDEF").bind Ex.ints = some [3] ∧
      (dictGet? d "DX").bind Ex.nums = some [1, 110] ∧
      (dictGet? d "X").bind Ex.cols = some [[0, 1, 2, 3], [-320, -210, -99]])) (by decide +kernel)
  refine ⟨a, d, h, fun r hr hn => ?_⟩
  have hP := of_decide_eq_true hP
  have e1 := hr ("NX", pyInts r.NX) (by simp [Obj.attrs]) (by simp)
  have e2 := hr ("NXDEF", pyInts r.NXDEF) (by simp [Obj.attrs]) (by simp)
  have e3 := hr ("DX", pyNums r.DX) (by simp [Obj.attrs]) (by simp)
  have e4 := hr ("X", pyCols (r.X0 :: r.XB)) (by simp [Obj.attrs, pyCols]) (by simp)
  dsimp only at e1 e2 e3 e4
  rw [e1, e2, e3, e4] at hP
  simp only [Option.bind_some, Ex.ints_pyInts, Ex.nums_pyNums, Ex.cols_pyCols, Option.some.injEq,
    List.cons.injEq] at hP
  obtain ⟨h1, h2, h3, h4, h5⟩ := hP
  refine ⟨{ r with XB := [[-320, -210, -100, 10]] }, ?_, rfl⟩
  unfold normalizeIndVars
  rw [h1, h2, h3, h5, hn]
  generalize hm : mapRes _ _ = m
  have : m = .ok [[-320, -210, -100, 10]] := by rw [← hm]; decide +kernel
  rw [this]
  rfl

/-! ### C61 -/

/-- C61, in part: `source` and `title` become `SNAME` and `MNAME`. -/
theorem C61_names_partial (h : collectDict env globals a = .ok d) (hn : (globals.map Prod.fst).Nodup) (s : Str) :
    (dictGet? globals "source" = some (.str s) → dictGet? d "SNAME" = some (.str s)) ∧
    (dictGet? globals "title" = some (.str s) → dictGet? d "MNAME" = some (.str s)) := by
  obtain ⟨p⟩ := collectDict_parts h
  refine ⟨fun hs => ?_, fun hs => ?_⟩
  · rw [p.rest _ (by decide)]
    exact globGo_set "SNAME" "source" (· = some (.str s)) (by simp [setters]) (.str s)
      (fun _ _ g => globStep_plain g (by decide) rfl) _ _ _ p.globs hn hs
  · rw [p.rest _ (by decide)]
    exact globGo_set "MNAME" "title" (· = some (.str s)) (by simp [setters]) (.str s)
      (fun _ _ g => globStep_plain g (by decide) rfl) _ _ _ p.globs hn hs

/-- C61, in part: `institution` becomes both `ONAME` and `ORG`, unless it has the form that nappy gives it (C62). -/
theorem C61_institution_partial (h : collectDict env globals a = .ok d) (hn : (globals.map Prod.fst).Nodup) (s : Str)
    (hl : '\n' ∉ s) (ho : ¬ Occurs "(ONAME from NASA Ames file);".toList s)
    (hs : dictGet? globals "institution" = some (.str s)) :
    dictGet? d "ONAME" = some (.str s) ∧ dictGet? d "ORG" = some (.str s) := by
  obtain ⟨p⟩ := collectDict_parts h
  have e : splitInstitution s = (s, s) := by
    unfold splitInstitution
    rw [match_no_mark ho, unfoldLines_plain hl]
  rw [p.rest _ (by decide), p.rest _ (by decide)]
  refine ⟨?_, ?_⟩
  · refine globGo_set "ONAME" "institution" (· = some (.str s)) (by simp [setters]) (.str s)
      (fun _ _ g => ?_) _ _ _ p.globs hn hs
    have := (globStep_institution g).1
    rwa [e] at this
  · refine globGo_set "ORG" "institution" (· = some (.str s)) (by simp [setters]) (.str s)
      (fun _ _ g => ?_) _ _ _ p.globs hn hs
    have := (globStep_institution g).2
    rwa [e] at this

/-- C61: an attribute that is missing leaves its item out of the dictionary. -/
theorem C61_missing (h : collectDict env globals a = .ok d) :
    (dictGet? globals "source" = none → dictGet? d "SNAME" = none) ∧
    (dictGet? globals "title" = none → dictGet? d "MNAME" = none) ∧
    (dictGet? globals "institution" = none → dictGet? d "ONAME" = none ∧ dictGet? d "ORG" = none) := by
  obtain ⟨p⟩ := collectDict_parts h
  have hno : ∀ key, dictGet? globals key = none → ∀ kv ∈ globals, kv.1 ≠ key := by
    intro key hk kv hkv e
    exact absent_of_none hk (List.mem_map.2 ⟨kv, hkv, e⟩)
  have h0 : ∀ it ∈ ["SNAME", "MNAME", "ONAME", "ORG"], dictGet? (varsDict a p.s) it = none := by
    intro it hit
    simp only [List.mem_cons, List.not_mem_nil, or_false] at hit
    unfold varsDict
    rcases hit with rfl | rfl | rfl | rfl <;> cases a.nvpm <;> simp [dictGet?]
  have key : ∀ it key, it ∈ ["SNAME", "MNAME", "ONAME", "ORG"] → (∀ k, (it, k) ∈ setters → k = key) →
      dictGet? globals key = none → dictGet? p.g.dict it = none := by
    intro it key hit hset hk
    rw [globGo_other it _ _ _ p.globs (fun kv hkv hm => hno key hk kv hkv (hset _ hm))]
    exact h0 it hit
  refine ⟨fun hk => ?_, fun hk => ?_, fun hk => ⟨?_, ?_⟩⟩
  · rw [p.rest _ (by decide)]; exact key "SNAME" "source" (by decide) (by simp [setters]) hk
  · rw [p.rest _ (by decide)]; exact key "MNAME" "title" (by decide) (by simp [setters]) hk
  · rw [p.rest _ (by decide)]; exact key "ONAME" "institution" (by decide) (by simp [setters]) hk
  · rw [p.rest _ (by decide)]; exact key "ORG" "institution" (by decide) (by simp [setters]) hk

/-- C61 fails for the volume numbers: both are 1 and the file is dated today, whatever the attributes say. -/
theorem C61_volumes_fails (h : collectDict env globals a = .ok d) :
    dictGet? d "IVOL" = some (.int 1) ∧ dictGet? d "NVOL" = some (.int 1) ∧
      dictGet? d "RDATE" = some (pyInts env.today) := by
  obtain ⟨p⟩ := collectDict_parts h
  exact ⟨p.ivol, p.nvol, p.rdate⟩

/-- C43, in part: whatever is found among the variables, a format other than 1020 has as many independent variables
as the data have axes. What is missing: 1020, see `C43_fails`. -/
theorem C43_dims_others_partial (env : XEnv F) (ha : analyse env requested vars = .ok (some a)) (hf : a.ffi ≠ 1020) :
    formatDims a.ffi = a.niv := analyse_dims ha hf

/-- C43 fails: the attribute `file_format_index` replaces the format that was chosen for the data. -/
theorem C43_attribute_wins (h : collectDict env globals a = .ok d) (hn : (globals.map Prod.fst).Nodup) (v : PyVal F)
    (hv : v.plain = true) (hs : dictGet? globals "file_format_index" = some v) : dictGet? d "FFI" = some v := by
  obtain ⟨p⟩ := collectDict_parts h
  rw [p.rest _ (by decide)]
  exact globGo_set "FFI" "file_format_index" (· = some v) (by simp [setters]) v
    (fun _ _ g => globStep_plain g (by decide) hv) _ _ _ p.globs hn hs

/-- The format chosen is in the dictionary if there is no such attribute. -/
theorem C43_in_dict (h : collectDict env globals a = .ok d) (hs : dictGet? globals "file_format_index" = none) :
    dictGet? d "FFI" = some (.int a.ffi) := by
  obtain ⟨p⟩ := collectDict_parts h
  rw [p.rest _ (by decide), globGo_other "FFI" _ _ _ p.globs ?_]
  · show dictGet? (varsDict a p.s) "FFI" = _
    unfold varsDict
    cases a.nvpm <;> simp [dictGet?]
  · intro kv hkv hm
    have : kv.1 = "file_format_index" := by
      simp only [setters, List.mem_cons, Prod.mk.injEq, List.not_mem_nil, or_false] at hm
      simpa using hm
    exact absent_of_none hs (List.mem_map.2 ⟨kv, hkv, this⟩)

/-- The assumptions are met: the example above has the attributes named here, and one of a wrong format. -/
example : (Ex.globals.map Prod.fst).Nodup ∧ dictGet? Ex.globals "source" = some (.str "Radiosonde".toList) ∧
    dictGet? Ex.globals "title" = some (.str "Ascents".toList) := ⟨by decide, rfl, rfl⟩

example : ∃ a d, analyse exXEnv none [Ex.dataVar "temp" [exTime] none none] = .ok (some a) ∧ a.ffi = 1001 ∧
    collectDict Ex.collectEnv [("file_format_index", .int 2010), ("institution", .str "BADC".toList)] a = .ok d ∧
    dictGet? d "FFI" = some (.int 2010) ∧ dictGet? d "ORG" = some (.str "BADC".toList) := by
  have : ∃ a, analyse exXEnv none [Ex.dataVar "temp" [exTime] none none] = .ok (some a) ∧
      (a.ffi = 1001 ∧ (collectDict Ex.collectEnv [("file_format_index", .int 2010),
        ("institution", .str "BADC".toList)] a).isOk = true) := found_of_eval (by decide +kernel)
  obtain ⟨a, h1, h2, h3⟩ := this
  cases h4 : collectDict Ex.collectEnv [("file_format_index", .int 2010), ("institution", .str "BADC".toList)] a with
  | error e => rw [h4] at h3; cases h3
  | ok d =>
    exact ⟨a, d, h1, h2, h4, C43_attribute_wins h4 (by decide) _ rfl rfl,
      (C61_institution_partial h4 (by decide) _ (by decide) (by
        rintro ⟨x, y, e⟩
        have := congrArg List.length e
        simp at this
        omega) rfl).2⟩

end

end Nappy.Props
