import Verif.Spec.NameBack
import Verif.Props.FileBack
import Verif.Props.ToNC
import Verif.Props.Names

/-! Property C108: the names of variables on the way to NetCDF and back. -/

namespace Nappy.Props

open Nappy Spec

variable {F : Type}

/-- The dictionary that is written keeps what nobody overrides, other than numbers of comments and normal comments. -/
theorem prepareDict_name {cfg : WriteConfig F} {items : Dict (PyVal F)} {delimiter : Str} {d d' : Dict (PyVal F)}
    (h : prepareDict cfg items delimiter d = .ok d') {k : String} (hother : k ≠ "NSCOML" ∧ k ≠ "NNCOML" ∧ k ≠ "NCOM")
    (h1 : k ∉ cfg.localAtts.map Prod.fst) (h2 : k ∉ items.map Prod.fst) : dictGet? d' k = dictGet? d k := by
  unfold prepareDict at h
  obtain ⟨d1, g1, g2⟩ := ok_of_bind h
  have hkeys : ∀ (l acc : Dict (PyVal F)), k ∉ acc.map Prod.fst → k ∉ l.map Prod.fst →
      k ∉ (l.foldl (fun d kv => dictSet d kv.1 kv.2) acc).map Prod.fst := by
    intro l
    induction l with
    | nil => exact fun _ h _ => h
    | cons p t ih =>
      intro acc ha hl
      rw [List.map_cons, List.mem_cons, not_or] at hl
      refine ih _ (fun hm => ?_) hl.2
      rcases (dictSet_keys _ _ _ _).1 hm with e | e
      · exact hl.1 e
      · exact ha e
  have e1 : dictGet? d1 k = dictGet? d k := by
    refine applyOverrides_frame g1 k ?_
    rintro key hkey ⟨_, rfl | ⟨_, e⟩ | ⟨_, e⟩⟩
    · exact hkeys _ _ h1 h2 hkey
    · exact hother.1 e
    · exact hother.2.1 e
  rw [← e1]
  split at g2
  · obtain rfl | ⟨ncom, line, -, rfl⟩ := columnHeaders_cases g2
    · rfl
    · rw [dictGet?_set, dictGet?_set, if_neg hother.2.1.symm, if_neg hother.2.2.symm]
  · rw [← Except.ok.inj g2]

/-- The normal comments that are written, if nobody overrides them: a line with the names of columns may be added. -/
theorem prepareDict_normal {cfg : WriteConfig F} {items : Dict (PyVal F)} {delimiter : Str} {d d' : Dict (PyVal F)}
    (h : prepareDict cfg items delimiter d = .ok d') {N : List Str} (hd : dictGet? d "NCOM" = some (pyStrs N))
    (h1 : "NCOM" ∉ cfg.localAtts.map Prod.fst) (h2 : "NCOM" ∉ items.map Prod.fst) :
    ∃ more, dictGet? d' "NCOM" = some (pyStrs (N ++ more)) := by
  unfold prepareDict at h
  obtain ⟨d1, g1, g2⟩ := ok_of_bind h
  have hkeys : ∀ (l acc : Dict (PyVal F)), "NCOM" ∉ acc.map Prod.fst → "NCOM" ∉ l.map Prod.fst →
      "NCOM" ∉ (l.foldl (fun d kv => dictSet d kv.1 kv.2) acc).map Prod.fst := by
    intro l
    induction l with
    | nil => exact fun _ h _ => h
    | cons p t ih =>
      intro acc ha hl
      rw [List.map_cons, List.mem_cons, not_or] at hl
      refine ih _ (fun hm => ?_) hl.2
      rcases (dictSet_keys _ _ _ _).1 hm with e | e
      · exact hl.1 e
      · exact ha e
  have e1 : dictGet? d1 "NCOM" = dictGet? d "NCOM" := by
    refine applyOverrides_frame g1 "NCOM" ?_
    rintro key hkey ⟨_, rfl | ⟨_, e⟩ | ⟨_, e⟩⟩
    · exact hkeys _ _ h1 h2 hkey
    · exact absurd e (by decide)
    · exact absurd e (by decide)
  rw [← e1] at hd
  split at g2
  · obtain rfl | ⟨ncom, line, e, rfl⟩ := columnHeaders_cases g2
    · exact ⟨[], by rw [List.append_nil]; exact hd⟩
    · rw [hd] at e
      injection e with e
      injection e with e
      refine ⟨[line], ?_⟩
      rw [dictGet?_set, dictGet?_set, if_neg (by decide), if_pos rfl, ← e]
      simp [pyStrs]
  · rw [← Except.ok.inj g2]
    exact ⟨[], by rw [List.append_nil]; exact hd⟩

/-- The names that the collector gives. -/
theorem collect_names {env : CollectEnv F} {globals : Dict (PyVal F)} {a : Analysis F} {d : Dict (PyVal F)}
    (h : collectDict env globals a = .ok d) :
    (∃ l, mapRes XVar.bestName a.main = .ok l ∧ dictGet? d "VNAME" = some (pyStrs l)) ∧
      ∃ pre l, mapRes XVar.bestName a.aux = .ok l ∧ dictGet? d "ANAME" = some (pyStrs (pre ++ l)) ∧
        (a.ffi ≠ 2110 → a.ffi ≠ 2310 → pre = []) := by
  obtain ⟨p⟩ := collectDict_parts h
  obtain ⟨h1, h2, x, h3, h4⟩ := p.vars_ok
  refine ⟨⟨p.s.vars.map VarItem.name, mapRes_project_ok h1 (fun x _ y hy => (varItem_ok hy).1),
    p.get "VNAME" (by simp [varItems]) (by decide) (by decide) (by simp [dictGet?])⟩, p.s.ind.aux.map VarItem.name,
    x.map VarItem.name, mapRes_project_ok h3 (fun x _ y hy => (varItem_ok hy).1), ?_, fun hf hg => ?_⟩
  · rw [← List.map_append, ← h4]
    exact p.get "ANAME" (by simp [varItems]) (by decide) (by decide) (by simp [dictGet?])
  · obtain ⟨q, _, _, q1, _⟩ := indSection_parts h2
    rw [(q1 hf hg).1]
    rfl

/-- What a variable that was made from a name and units is called. -/
theorem bestName_back {v : XVar F} {id : Str} {units : Option Str} (hid : '(' ∉ id) (hne : id ≠ [])
    (h1 : dictGet? v.attrs "long_name" = some id)
    (h2 : dictGet? v.attrs "units" = units.filter (fun u => !u.isEmpty)) (h3 : v.encUnits = none)
    (hp : ∀ u, units = some u → '(' ∉ u) : ∃ name, v.bestName = .ok name ∧ NamedBack id units name := by
  have hc : calledBy v.attrs v.name = id := by
    unfold calledBy
    rw [h1]
  have hu : unitsOf (dictGet? v.attrs "units") v.encUnits = strip (units.getD []) := by
    unfold unitsOf
    rw [h2, h3]
    cases units with
    | none => rfl
    | some u => cases u <;> rfl
  by_cases e : strip (units.getD []) = []
  · rcases C73_no_units v (by rw [hc]; exact hne) (by rw [hu]; exact e) with ⟨_, h⟩ | ⟨s, h, _⟩
    · exact ⟨id, by rw [h, hc], .inl ⟨e, rfl⟩⟩
    · rw [hc] at h
      exact absurd (by rw [h]; simp) hid
  · refine ⟨_, C73_new v _ (by rw [hc]; exact hne) hu e (fun hm => ?_) (fun hm => ?_), .inr ⟨e, by rw [hc]⟩⟩
    · cases units with
      | none => exact absurd rfl e
      | some u => exact hp u rfl (mem_strip _ _ hm)
    · rw [hc] at hm
      obtain ⟨x, y, hm⟩ := hm
      exact hid (by rw [hm]; simp)

theorem makeVar_units {env : ToXEnv F} {axes : List (XAxis F)} {short : Str} {units : Option Str} {miss scal : F}
    {data : Tree F} {num aux : Option Int} {v : XVar F} (h : makeVar env axes short units miss scal data num aux = .ok v) :
    v.encUnits = none ∧ dictGet? v.attrs "units" = units.filter (fun u => !u.isEmpty) := by
  obtain ⟨_, _, h⟩ := ok_of_bind h
  injection h with h
  subst h
  refine ⟨rfl, ?_⟩
  cases units with
  | none => rfl
  | some u => cases u <;> rfl

theorem goodId_open {id : Str} (h : GoodId id) : '(' ∉ id := fun hm => (h _ hm).2.1 (by decide)

/-- From what is known about a variable to its name. -/
theorem named_back {renames : Renames} (hr : ∀ kv ∈ renames, kv.2 ≠ []) {s : Str} (hs : s ≠ []) {units : Option Str}
    {v w : XVar F} (hw : w.bestName = v.bestName) {name' : Str} (hn : w.bestName = .ok name')
    (he : v.encUnits = none) (hu : dictGet? v.attrs "units" = units.filter (fun u => !u.isEmpty))
    (hp : ∀ u, units = some u → '(' ∉ u)
    (h : ∃ id, IdFor s id ∧
      (NotWanted renames id → v.name = id ∧ dictGet? v.attrs "long_name" = some id ∧
        dictGet? v.attrs "title" = some id) ∧
      ∀ new, Wanted renames id new → v.name = new.map (fun c => if c = ' ' then '_' else c.toLower) ∧
        dictGet? v.attrs "long_name" = some new ∧ dictGet? v.attrs "title" = some new) :
    ∃ id, IdFor s id ∧ (NotWanted renames id → NamedBack id units name') ∧
      ∀ new, Wanted renames id new → '(' ∉ new → NamedBack new units name' := by
  obtain ⟨id, h1, h2, h3⟩ := h
  rw [hw] at hn
  refine ⟨id, h1, fun hw => ?_, fun new hw ho => ?_⟩
  · obtain ⟨m, m1, m2⟩ := bestName_back (goodId_open h1.2.1) (h1.2.2.2.1 hs) (h2 hw).2.1 hu he hp
    rw [hn] at m1
    injection m1 with m1
    rw [m1]
    exact m2
  · have hne : new ≠ [] := by
      obtain ⟨pre, k, post, e, _⟩ := hw
      exact hr (k, new) (by rw [e]; simp)
    obtain ⟨m, m1, m2⟩ := bestName_back ho hne (h3 new hw).2.1 hu he hp
    rw [hn] at m1
    injection m1 with m1
    rw [m1]
    exact m2

theorem main_units {env : ToXEnv F} {n : NAView F} {axes : List (XAxis F)} {i : Nat} {v : XVar F} {name : Str}
    (h : mainVar env n axes i = .ok v) (hname : n.v.VNAME[i]? = some name) :
    v.encUnits = none ∧ dictGet? v.attrs "units" = (varAndUnits env.cb name).2.filter (fun u => !u.isEmpty) := by
  obtain ⟨name', h1, h⟩ := ok_of_bind h
  rw [idxI_nat] at h1
  have := idx_some h1
  rw [hname] at this
  injection this with this
  subst this
  obtain ⟨miss, _, h⟩ := ok_of_bind h
  obtain ⟨scal, _, h⟩ := ok_of_bind h
  obtain ⟨data, _, h⟩ := ok_of_bind h
  exact makeVar_units h

theorem aux_enc {env : ToXEnv F} {n : NAView F} {a : AuxHdr F} {axes : List (XAxis F)} {i : Nat} {v : XVar F}
    (h : auxVar env n a axes i = .ok v) : v.encUnits = none := by
  obtain ⟨name', _, h⟩ := ok_of_bind h
  obtain ⟨miss, _, h⟩ := ok_of_bind h
  obtain ⟨scal, _, h⟩ := ok_of_bind h
  obtain ⟨data, _, h⟩ := ok_of_bind h
  exact (makeVar_units h).1

theorem main_namesBack {isNaN : F → Bool} {env : ToXEnv F} {user : Dict (PyVal F)} {auxSel : Selection} {tu : Option Str}
    {o : Obj F} {r : ToXResult F} (h : toXarray env user .all auxSel tu o = .ok r) {ws : List (XVar F)}
    (hw : List.Forall₂ (Reopened isNaN) r.vars ws) {l : List Str} (hl : mapRes XVar.bestName ws = .ok l)
    (hlen : (varHeader o).VNAME.length = (varHeader o).NV.toNat)
    (hleft : ∀ s ∈ (varHeader o).VNAME, (varAndUnits env.cb s).1 ≠ []) (hr : ∀ kv ∈ env.renames, kv.2 ≠ []) :
    NamesBack env.cb env.renames (varHeader o).VNAME l := by
  have e1 := (C64_values h).1
  have e2 := hw.length_eq
  have e3 := mapRes_ok_length _ _ _ hl
  refine ⟨by omega, fun i name name' hn hn' hs hp => ?_⟩
  have hi := (List.getElem?_eq_some_iff.1 hn').1
  obtain ⟨k1, k2⟩ := List.forall₂_iff_get.1 hw
  have hr1 := k2 i (by omega) (by omega)
  have hv : r.vars[i]? = some (r.vars.get ⟨i, by omega⟩) := List.getElem?_eq_getElem _
  have hx : ws[i]? = some (ws.get ⟨i, by omega⟩) := List.getElem?_eq_getElem _
  obtain ⟨n, axes, e, hm⟩ := main_made h hv
  obtain ⟨u1, u2⟩ := main_units hm (by rw [e]; exact hn)
  exact named_back hr (hleft _ (List.mem_of_getElem? hn)) (reopened_same hr1).2.2.2.2.2.2 (mapRes_get hl hx hn') u1 u2 hp
    (C78_main h hv hn hs)

theorem aux_namesBack {isNaN : F → Bool} {env : ToXEnv F} {user : Dict (PyVal F)} {sel : Selection} {tu : Option Str}
    {f : NA2010 F} (hf : WfAux f.aux) {r : ToXResult F} (h : toXarray env user sel .all tu (.o2010 f) = .ok r)
    {ws : List (XVar F)} (hw : List.Forall₂ (Reopened isNaN) r.aux ws) {l : List Str}
    (hl : mapRes XVar.bestName ws = .ok l) (hleft : ∀ s ∈ f.aux.ANAME, (varAndUnits env.cb s).1 ≠ [])
    (hr : ∀ kv ∈ env.renames, kv.2 ≠ []) : NamesBack env.cb env.renames f.aux.ANAME l := by
  have e1 : r.aux.length = f.aux.NAUXV.toNat := (C64_aux h).1
  have e2 := hw.length_eq
  have e3 := mapRes_ok_length _ _ _ hl
  have e4 := hf.aname
  refine ⟨by omega, fun i name name' hn hn' hs hp => ?_⟩
  have hi := (List.getElem?_eq_some_iff.1 hn').1
  obtain ⟨k1, k2⟩ := List.forall₂_iff_get.1 hw
  have hr1 := k2 i (by omega) (by omega)
  have hv : r.aux[i]? = some (r.aux.get ⟨i, by omega⟩) := List.getElem?_eq_getElem _
  have hx : ws[i]? = some (ws.get ⟨i, by omega⟩) := List.getElem?_eq_getElem _
  obtain ⟨n, a, axes, _, _, hm⟩ := aux_made h hv
  obtain ⟨⟨nm, miss, scale, col, d1, _, _, _, u2⟩, _⟩ := (C64_aux h).2 i _ hv
  have : nm = name := Option.some.inj (d1.1.symm.trans hn)
  subst this
  exact named_back hr (hleft _ (List.mem_of_getElem? hn)) (reopened_same hr1).2.2.2.2.2.2 (mapRes_get hl hx hn')
    (aux_enc hm) u2 hp (C78_aux_partial h hv d1 hs)

/-- C108. The file that comes back has as many names, and each is made from the old one: it has the form
that NetCDF tools can use, or is the one the caller wants, and the units are in brackets at its end. If nobody overrides
the names. -/
theorem C108_names (fmt : Str → Codec F) (table : String → Str) {cd : Codec F} {tenv : ToXEnv F} {typed : List Str}
    {naFile text ncName : Str} {na : NAToNCArgs F} {nc nc' : NCFile F} {o : Obj F}
    (hto : convertNAToNC cd tenv typed naFile text na = .ok (ncName, nc)) (hmain : na.mainVars = .all)
    (haux : na.auxVars = .all) (hattrs : (na.globalAttributes.map Prod.fst).Nodup)
    (hread : readFile cd 0 text = .ok o)
    (hcount : nc.vars.length = (varHeader o).NV.toNat + (Spec.auxCount o).toNat)
    (env : ApiEnv F) (args : NCToNAArgs F) (hret : Returnable tenv na.renameVariables env.collect.x o)
    (hfree : NamesFree nc.vars) (hopen : env.openNC args.ncFile = .ok nc')
    (hback : ReopenedFile env.collect.x.isNaN nc nc')
    (hids : args.varIds = none) (hexc : args.excludeVars = []) (hreq : args.requestedFFI = none)
    (hloc : LocalKnown env.collect.localNc)
    (huni : ∀ ax, ax.values ≠ [] → ∃ u, env.collect.x.uniform ax = .ok u)
    {q : F → F} (hcd : (fmt args.opts.floatFormat).Lawful q) (hdel : WsDelim args.opts.delimiter)
    (ho : args.opts.annotation = false) (hh : args.opts.noHeader = false) (hsz : args.opts.sizeLimit = none)
    (hnames : args.onlyNames = false)
    (hfit : ∀ d, ncDicts env args = .ok [d] → TripFits env args.naItems args.opts.delimiter o.FFI d)
    (hover : ∀ k ∈ env.cfg.localAtts.map Prod.fst ++ args.naItems.map Prod.fst, k ≠ "VNAME" ∧ k ≠ "ANAME") :
    ∃ c out o', (convertNCToNA (emitFile fmt table) env args).calls = [c] ∧ fileOf fmt table c = .ok out ∧
      readFile (fmt args.opts.floatFormat) 0 out.text = .ok o' ∧
      NamesBack tenv.cb na.renameVariables (varHeader o).VNAME (varHeader o').VNAME ∧
      NamesBack tenv.cb na.renameVariables (auxNames o) (auxNames o') := by
  obtain ⟨c, out, o', h1, h2, h3, h4, h5, h6, te, user, r, a, d, k1, k2, _, k3, k4, k5, k6, k7, k8, _⟩ := trip_core fmt table hto
    hmain haux hattrs hread hcount env args hret hfree hopen hback hids hexc hreq hloc huni hcd hdel ho hh hsz hnames hfit
  refine ⟨c, out, o', h2, h3, h5, ?_, ?_⟩
  all_goals rw [← k1, ← k2]
  all_goals obtain ⟨⟨l, l1, l2⟩, pre, m, m1, m2, m3⟩ := collect_names k6
  all_goals obtain ⟨n1, n2, n3⟩ := hret.names
  · have e := k8.names
    rw [prepareDict_name k7 (by decide) (fun hm => (hover _ (List.mem_append_left _ hm)).1 rfl)
      (fun hm => (hover _ (List.mem_append_right _ hm)).1 rfl), l2] at e
    injection e with e
    injection e with e
    rw [← List.map_injective_iff.2 (fun x y e => by injection e) e]
    refine main_namesBack k3 k4 l1 ?_ (fun s hs => by rw [k2]; exact n2 s (List.mem_append_left _ hs))
      (by rw [k1]; exact n3)
    have : ((varHeader o).VNAME.length : Int) = (varHeader o).NV := by
      cases hret.regular with
      | one f hw => exact hw.vars.vname
      | more f hw => exact hw.vars.vname
    omega
  · have hff : a.ffi = o.FFI := by rw [← k8.format, h6.format]
    cases hr : hret.regular with
    | one f hw =>
      have e1 : a.ffi = 1001 := by rw [hff]; exact hw.ffi
      obtain ⟨s, rfl, _⟩ := k8.wf1001 e1
      exact ⟨rfl, fun i _ _ hi => by simp [auxNames, auxSection] at hi⟩
    | more f hw =>
      have e1 : a.ffi = 2010 ∨ a.ffi = 3010 ∨ a.ffi = 4010 := by
        rw [hff]
        rcases hw.ffi with ⟨e, _⟩ | ⟨e, _⟩ | ⟨e, _⟩
        · exact .inl e
        · exact .inr (.inl e)
        · exact .inr (.inr e)
      obtain ⟨s, rfl, hs⟩ := k8.wf2010 e1
      obtain ⟨_, h, _, j1, _, _, _, j2⟩ := k8.aux (by omega) (by omega)
      injection j1 with j1
      subst j1
      have hm := aux_namesBack hw.aux k3 k5 m1 (fun s hs => by
        rw [k2]; exact n2 s (List.mem_append_right _ hs)) (by rw [k1]; exact n3)
      show NamesBack _ _ f.aux.ANAME s.aux.ANAME
      by_cases h0 : 0 < s.aux.NAUXV
      · have e := j2 h0
        rw [prepareDict_name k7 (by decide) (fun hm => (hover _ (List.mem_append_left _ hm)).2 rfl)
          (fun hm => (hover _ (List.mem_append_right _ hm)).2 rfl), m2, m3 (by omega) (by omega)] at e
        injection e with e
        injection e with e
        rw [← List.map_injective_iff.2 (fun x y e => by injection e) e]
        exact hm
      · have e2 : s.aux.NAUXV = f.aux.NAUXV := h6.auxCount
        have e3 := hs.aux.aname
        have e4 := hw.aux.aname
        have e5 : s.aux.ANAME = [] := List.length_eq_zero_iff.1 (by omega)
        have e6 : f.aux.ANAME = [] := List.length_eq_zero_iff.1 (by omega)
        rw [e5, e6]
        exact ⟨rfl, fun i _ _ hi => by simp at hi⟩

/-- C108, a case: a name that is good already comes back as it was, with its units. -/
theorem C108_kept {renames : Renames} {names names' : List Str} (h : NamesBack none renames names names') {i : Nat}
    {n u : Str} (hn : names[i]? = some (n ++ " (".toList ++ u ++ ")".toList)) (hg : GoodId n) (hl : n.length < 64)
    (hu : u ≠ []) (hs : strip u = u) (hp : ∀ c ∈ u, c ≠ '(' ∧ c ≠ ')' ∧ c ≠ '\n') (hw : NotWanted renames n) :
    names'[i]? = names[i]? := by
  have hsp : strip n = n :=
    strip_eq_self n ⟨fun c t e => (hg c (by rw [e]; simp)).1, fun a c e => (hg c (by rw [e]; simp)).1⟩
  have e := C47_split n u (fun hm => by simpa [isSpace] using (hg _ hm).1) hu hp
  rw [hsp] at e
  obtain ⟨h1, h2⟩ := h
  have hi := (List.getElem?_eq_some_iff.1 hn).1
  have hx : names'[i]? = some (names'[i]'(by omega)) := List.getElem?_eq_getElem _
  obtain ⟨id, k1, k2, _⟩ := h2 i _ _ hn hx (by rw [e]; exact hl) (fun v hv => by
    rw [e] at hv
    injection hv with hv
    subst hv
    exact fun hm => (hp _ hm).1 rfl)
  rw [e] at k1 k2
  have := cleaned_good k1.1 hg
  subst this
  rcases k2 hw with ⟨k, _⟩ | ⟨_, k⟩
  · rw [Option.getD_some, hs] at k
    exact absurd k hu
  · rw [Option.getD_some, hs] at k
    rw [hx, k, hn]

/-! ### Concrete cases -/

theorem Ex.trip_names {o o1 : Obj Int} {count : Nat} (ht : Ex.tripTest o count = true)
    (hr : readFile intCodec 0 (Ex.tripText o) = .ok o1)
    (hc : count = (varHeader o1).NV.toNat + (Spec.auxCount o1).toNat) (h10 : o1.FFI = 1001 ∨ o1.FFI = 2010)
    (hret : Returnable Nappy.Ex.toXEnv [] Ex.gapX o1) :
    ∃ c out o', (convertNCToNA (emitFile (fun _ => intCodec) exTable) (Ex.tripApi o) exArgs).calls = [c] ∧
      fileOf (fun _ => intCodec) exTable c = .ok out ∧ readFile intCodec 0 out.text = .ok o' ∧
      NamesBack none [] (varHeader o1).VNAME (varHeader o').VNAME ∧ NamesBack none [] (auxNames o1) (auxNames o') := by
  unfold Ex.tripTest at ht
  split at ht
  · rename_i name nc hnc
    simp only [Bool.and_eq_true, decide_eq_true_eq] at ht
    obtain ⟨⟨⟨t1, t2⟩, t3⟩, t4⟩ := ht
    have hopen : (Ex.tripApi o).openNC exArgs.ncFile = .ok (Ex.reopen nc) := by
      simp only [Ex.tripApi, hnc]
    obtain ⟨c, out, o', r1, r3, r5, r6, r7⟩ := C108_names (fun _ => intCodec) exTable (nc := nc) hnc rfl rfl
      List.nodup_nil hr (by omega) (Ex.tripApi o) exArgs hret (Ex.namesFree_of t2) hopen (Ex.reopen_file nc t3) rfl rfl
      rfl (by intro k h; cases h) (fun _ _ => ⟨true, rfl⟩) (q := id) Nappy.Ex.intCodec_lawful (by decide) rfl rfl rfl rfl
      (fun d hd => by
        rw [hd] at t4
        simp only [Bool.and_eq_true] at t4
        have hs := Ex.textsFit_of t4.1
        refine ⟨⟨hs.dates, hs.names, hs.comments⟩, ?_, fun e => by omega⟩
        have t5 := t4.2
        split at t5
        · exact ⟨_, by assumption, Ex.header_of t5⟩
        · cases t5)
      (show ∀ k ∈ ["ORG"], k ≠ "VNAME" ∧ k ≠ "ANAME" by decide)
    exact ⟨c, out, o', r1, r3, r5, r6, r7⟩
  · cases ht

/-- The hypotheses of `C108_names` are met by a file with two axes and an auxiliary variable. -/
example : ∃ c out o', (convertNCToNA (emitFile (fun _ => intCodec) exTable) (Ex.tripApi (.o2010 Ex.gapGrid)) exArgs).calls
      = [c] ∧ fileOf (fun _ => intCodec) exTable c = .ok out ∧ readFile intCodec 0 out.text = .ok o' ∧
    NamesBack none [] Ex.gapGrid.v.VNAME (varHeader o').VNAME ∧
    NamesBack none [] Ex.gapGrid.aux.ANAME (auxNames o') := by
  obtain ⟨o1, h1, h2, h3, h4, h5, _, h6⟩ := Ex.gapGrid_read
  obtain ⟨c, out, o', k1, k2, k3, k4, k5⟩ := Ex.trip_names (by decide +kernel) h1 h2 (.inr h3) h6
  rw [h4] at k4
  rw [h5] at k5
  exact ⟨c, out, o', k1, k2, k3, k4, k5⟩

/-- Names as in the file, and good ones. -/
example : Ex.gapGrid.v.VNAME = ["O3 (ppb)".toList, "Temp".toList] ∧ GoodId "o3".toList ∧ NotWanted [] "o3".toList ∧
    strip "ppb".toList = "ppb".toList ∧
    IdFor "No. of (m/s) shots!".toList "no._of_m_s_shots_".toList :=
  ⟨rfl, by unfold GoodId; decide, by simp [NotWanted], by decide, idFor_safeId "No. of (m/s) shots!".toList⟩

end Nappy.Props
