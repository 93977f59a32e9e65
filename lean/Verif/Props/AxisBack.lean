import Verif.Spec.AxisBack
import Verif.Props.NameBack

/-! Property C109: the names of axes on the way to NetCDF and back. -/

namespace Nappy.Props

open Nappy Spec

variable {F : Type}

theorem axisTypes_units (name : Str) (attrs : Dict Str) :
    dictGet? (axisTypes name attrs).2 "units" = dictGet? attrs "units" := by
  unfold axisTypes
  generalize ([("longitude", "X"), ("latitude", "Y"), ("level", "Z"), ("time", "T")] : List (String × String)) = l
  induction l generalizing name attrs with
  | nil => rfl
  | cons t l ih =>
    rw [List.foldl_cons]
    dsimp only
    split
    · rw [ih, dictGet?_set, if_neg (by decide), dictGet?_set, if_neg (by decide)]
    · rw [ih]

/-- The attributes of an axis. -/
theorem axisOf_attrs {env : ToXEnv F} {i : Nat} {xname : Str} {values : List F} {tu : Option Str}
    {r : XAxis F × Option Str} (h : axisOf env i xname values tu = .ok r) :
    (dictGet? r.1.attrs "long_name" = some xname ∧ dictGet? r.1.attrs "units" = some (axisUnits env.cb xname)) ∨
      (TimeAsked env xname ∧ ∃ t, timeUnits env tu = .ok t ∧ r.2 = some t ∧
        dictGet? r.1.attrs "long_name" = some ("time (".toList ++ t ++ ")".toList) ∧
        dictGet? r.1.attrs "units" = some (if t = [] then axisUnits env.cb xname else t)) := by
  unfold axisOf at h
  obtain ⟨x, h1, h⟩ := ok_of_bind h
  injection h with h
  subst h
  have e1 : dictGet? (axisTypes (shortName "naIndVariable_".toList (varAndUnits env.cb xname).1 i)
      ([("long_name", xname)] ++ (match (varAndUnits env.cb xname).2 with | some u => [("units", u)] | none => []))).2
      "long_name" = some xname := by rw [axisTypes_long]; simp [dictGet?]
  have e2 : dictGet? (axisTypes (shortName "naIndVariable_".toList (varAndUnits env.cb xname).1 i)
      ([("long_name", xname)] ++ (match (varAndUnits env.cb xname).2 with | some u => [("units", u)] | none => []))).2
      "units" = (varAndUnits env.cb xname).2 := by
    rw [axisTypes_units]
    cases (varAndUnits env.cb xname).2 <;> simp [dictGet?]
  generalize (axisTypes (shortName "naIndVariable_".toList (varAndUnits env.cb xname).1 i)
      ([("long_name", xname)] ++ (match (varAndUnits env.cb xname).2 with | some u => [("units", u)] | none => []))) = na
    at e1 e2 h1
  have hlong : ∀ (d : Dict Str) (nm u : Str), dictGet? (if (dictGet? (dictSet d "name" nm) "units").getD [] = [] then
      dictSet (dictSet d "name" nm) "units" u else dictSet d "name" nm) "long_name" = dictGet? d "long_name" := by
    intro d nm u
    split
    · rw [dictGet?_set, if_neg (by decide), dictGet?_set, if_neg (by decide)]
    · rw [dictGet?_set, if_neg (by decide)]
  have hunit : ∀ (d : Dict Str) (nm u : Str), dictGet? (if (dictGet? (dictSet d "name" nm) "units").getD [] = [] then
      dictSet (dictSet d "name" nm) "units" u else dictSet d "name" nm) "units" =
        some (if (dictGet? d "units").getD [] = [] then u else (dictGet? d "units").getD []) := by
    intro d nm u
    have e : dictGet? (dictSet d "name" nm) "units" = dictGet? d "units" := by rw [dictGet?_set, if_neg (by decide)]
    rw [e]
    split
    · rw [dictGet?_set, if_pos rfl]
    · rename_i hz
      rw [e]
      cases hd : dictGet? d "units" with
      | none => rw [hd] at hz; exact absurd rfl hz
      | some _ => rfl
  dsimp only
  rw [hlong, hunit]
  unfold axisTime at h1
  split at h1
  · rename_i hc
    simp only [Bool.and_eq_true, Bool.not_eq_true'] at hc
    obtain ⟨t, ht, h1⟩ := ok_of_bind h1
    injection h1 with h1
    subst h1
    refine .inr ⟨⟨⟨_, _, hc.1⟩, hc.2⟩, t, ht, rfl, ?_, ?_⟩
    · rw [dictGet?_set, if_pos rfl]
    · have e : ∀ x : Str, dictGet? (dictSet (dictSet na.2 "units" t) "long_name" x) "units" = some t := by
        intro x
        rw [dictGet?_set, if_neg (by decide), dictGet?_set, if_pos rfl]
      rw [e]
      unfold axisUnits
      cases (varAndUnits env.cb xname).2 <;> rfl
  · injection h1 with h1
    subst h1
    refine .inl ⟨e1, ?_⟩
    rw [e2]
    unfold axisUnits
    cases (varAndUnits env.cb xname).2 with
    | none => rfl
    | some u => by_cases hz : u = [] <;> simp [hz]

/-- The name made from these attributes. -/
theorem axis_bestName {ax : XAxis F} {title units name : Str} (hx : title ≠ [])
    (h1 : dictGet? ax.attrs "long_name" = some title) (h2 : dictGet? ax.attrs "units" = some units)
    (hn : ax.bestName = .ok name) : TitledBack title units name := by
  let v : XVar F := { name := ax.name, axes := [], data := .lst [], naNumber := none, naAuxNumber := none, miss := none,
                      attrs := ax.attrs, encUnits := ax.encUnits }
  rw [C73_axis ax v rfl rfl rfl] at hn
  have hc : calledBy v.attrs v.name = title := by
    unfold calledBy
    rw [show v.attrs = ax.attrs from rfl, h1]
  intro u hu hne ho hc'
  have hun : unitsOf (dictGet? v.attrs "units") v.encUnits = u := by
    unfold unitsOf
    rw [show v.attrs = ax.attrs from rfl, h2, ← hu]
    have : units ≠ [] := by
      intro e
      rw [e] at hu
      exact hne (by rw [← hu]; rfl)
    rw [if_neg (by simpa using this)]
    rfl
  refine ⟨fun hocc => ?_, fun a b e ha hb => ?_⟩
  · rw [C73_new v u (by rw [hc]; exact hx) hun hne ho (by rw [hc]; exact hocc), hc] at hn
    exact (Except.ok.inj hn).symm
  · rw [C73_have v u a b hun hne ⟨ho, hc'⟩ (by rw [hc]; exact e) ha hb] at hn
    exact (Except.ok.inj hn).symm

/-- Units of time once known are used again. -/
theorem axisOf_timeUnits {env : ToXEnv F} {i : Nat} {xname : Str} {values : List F} {tu : Option Str}
    {r : XAxis F × Option Str} {t : Str} (h : axisOf env i xname values tu = .ok r) (ht : timeUnits env r.2 = .ok t) :
    timeUnits env tu = .ok t := by
  unfold axisOf at h
  obtain ⟨x, h1, h⟩ := ok_of_bind h
  injection h with h
  subst h
  generalize axisTypes _ _ = na at h1
  unfold axisTime at h1
  split at h1
  · obtain ⟨t', ht', h1⟩ := ok_of_bind h1
    injection h1 with h1
    subst h1
    rw [ht', ← ht]
    rfl
  · injection h1 with h1
    subst h1
    exact ht

theorem timeGiven_of {env : ToXEnv F} {tu : Option Str} {ask : Bool} {typed : List Str} {t : Str}
    (ha : env.answers = (if ask then some typed else none)) (h : timeUnits env tu = .ok t) :
    TimeGiven tu ask typed env.timeMatch t := by
  cases tu with
  | some u => exact .inl (by rw [Except.ok.inj h])
  | none =>
    unfold timeUnits at h
    rw [ha] at h
    cases ask with
    | false => exact .inr (.inl ⟨rfl, rfl, (Except.ok.inj h).symm⟩)
    | true =>
      refine .inr (.inr ⟨rfl, rfl, ?_⟩)
      change askUnits env.timeMatch typed = .ok t at h
      clear ha
      induction typed with
      | nil => cases h
      | cons x l ih =>
        unfold askUnits at h
        split at h
        · rename_i hc
          injection h with h
          subst h
          exact ⟨[], l, rfl, by simpa using hc, by simp⟩
        · rename_i hc
          obtain ⟨p, q, e, e1, e2⟩ := ih h
          refine ⟨x :: p, q, by rw [e]; rfl, e1, ?_⟩
          intro y hy
          rcases List.mem_cons.1 hy with rfl | hy
          · simpa using hc
          · exact e2 y hy

theorem axesGo_attrs {env : ToXEnv F} {n : NAView F} :
    ∀ (k i : Nat) (tu : Option Str) (axes : List (XAxis F)), axesGo env n tu i k = .ok axes → axes.length = k ∧
      ∀ (j : Nat) ax, axes[j]? = some ax → ∃ xn, n.XNAME[i + j]? = some xn ∧
        ((dictGet? ax.attrs "long_name" = some xn ∧ dictGet? ax.attrs "units" = some (axisUnits env.cb xn)) ∨
          (TimeAsked env xn ∧ ∃ t, timeUnits env tu = .ok t ∧
            dictGet? ax.attrs "long_name" = some ("time (".toList ++ t ++ ")".toList) ∧
            dictGet? ax.attrs "units" = some (if t = [] then axisUnits env.cb xn else t)))
  | 0, i, tu, axes, h => by injection h with h; subst h; simp
  | k + 1, i, tu, axes, h => by
    obtain ⟨vals, h1, h⟩ := ok_of_bind h
    obtain ⟨xn, h2, h⟩ := ok_of_bind h
    obtain ⟨r, h3, h⟩ := ok_of_bind h
    obtain ⟨rest, h4, h⟩ := ok_of_bind h
    injection h with h
    subst h
    obtain ⟨k1, k2⟩ := axesGo_attrs k (i + 1) r.2 rest h4
    refine ⟨by simp [k1], fun j ax hj => ?_⟩
    cases j with
    | zero =>
      injection hj with hj
      subst hj
      refine ⟨xn, idx_some h2, (axisOf_attrs h3).imp id ?_⟩
      rintro ⟨g1, t, g2, _, g3, g4⟩
      exact ⟨g1, t, g2, g3, g4⟩
    | succ j =>
      obtain ⟨xn', g1, g2⟩ := k2 j ax hj
      refine ⟨xn', by rw [← g1]; congr 1; omega, g2.imp id ?_⟩
      rintro ⟨m1, t, m2, m3⟩
      exact ⟨m1, t, axisOf_timeUnits h3 m2, m3⟩

theorem mainVar_axes {env : ToXEnv F} {n : NAView F} {axes : List (XAxis F)} {i : Int} {v : XVar F}
    (h : mainVar env n axes i = .ok v) : v.axes = axes := by
  obtain ⟨name, _, h⟩ := ok_of_bind h
  obtain ⟨miss, _, h⟩ := ok_of_bind h
  obtain ⟨scal, _, h⟩ := ok_of_bind h
  obtain ⟨data, _, h⟩ := ok_of_bind h
  obtain ⟨_, _, h⟩ := ok_of_bind h
  injection h with h
  subst h
  rfl

/-- C109, in part: what becomes of the names of the axes of a file that is converted to NetCDF and back. They are as many,
and each is the old name with units in brackets at its end, `Not known` if it has none. An axis taken for one of time
without units of time is called `time`, and what was typed or given. What is missing: the names are not kept, as
`C109_never_fails` shows. -/
theorem C109_partial (fmt : Str → Codec F) (table : String → Str) {cd : Codec F} {tenv : ToXEnv F} {typed : List Str}
    {naFile text ncName : Str} {na : NAToNCArgs F} {nc nc' : NCFile F} {o : Obj F}
    (hto : convertNAToNC cd tenv typed naFile text na = .ok (ncName, nc)) (hmain : na.mainVars = .all)
    (haux : na.auxVars = .all) (hattrs : (na.globalAttributes.map Prod.fst).Nodup)
    (hread : readFile cd 0 text = .ok o)
    (hcount : nc.vars.length = (varHeader o).NV.toNat + (Spec.auxCount o).toNat)
    (env : ApiEnv F) (args : NCToNAArgs F) (hret : Returnable tenv na.renameVariables env.collect.x o)
    (hfree : NamesFree nc.vars) (hopen : env.openNC args.ncFile = .ok nc')
    (hback : ReopenedFile env.collect.x.isNaN nc nc')
    (hids : args.varIds = none) (hexc : args.excludeVars = []) (hreq : args.requestedFFI = none)
    (hloc : LocalKnown env.collect.localNc)
    (huni : ∀ ax, ax.values ≠ [] → ∃ u, env.collect.x.uniform ax = .ok u)
    {q : F → F} (hcd : (fmt args.opts.floatFormat).Lawful q) (hdel : WsDelim args.opts.delimiter)
    (ho : args.opts.annotation = false) (hh : args.opts.noHeader = false) (hsz : args.opts.sizeLimit = none)
    (hnames : args.onlyNames = false)
    (hfit : ∀ d, ncDicts env args = .ok [d] → TripFits env args.naItems args.opts.delimiter o.FFI d) :
    ∃ c out o', (convertNCToNA (emitFile fmt table) env args).calls = [c] ∧ fileOf fmt table c = .ok out ∧
      readFile (fmt args.opts.floatFormat) 0 out.text = .ok o' ∧
      (axisHeader o').2.length = (axisHeader o).2.length ∧
      ∀ (i : Nat) s s', (axisHeader o).2[i]? = some s → (axisHeader o').2[i]? = some s' →
        AxisNamedBack tenv.cb s s' ∨ (TimeAsked tenv s ∧
          ∃ t, TimeGiven na.timeUnits na.timeWarning typed tenv.timeMatch t ∧ TimeNamedBack tenv.cb t s s') := by
  obtain ⟨c, out, o', h1, h2, h3, h4, h5, h6, te, user, r, a, d, k1, k2, k0, k3, k4, k5, k6, k7, k8, _⟩ := trip_core fmt
    table hto hmain haux hattrs hread hcount env args hret hfree hopen hback hids hexc hreq hloc huni hcd hdel ho hh hsz
    hnames hfit
  obtain ⟨v, v1, v2⟩ := k8.axisNames
  obtain ⟨n, axes, is, p1, _, p3, p4, p5, _⟩ := toXarray_parts k3
  have f := view_facts p1
  obtain ⟨g1, g2⟩ := axesGo_attrs _ _ _ _ p3
  have hax : v.axes = axes := by
    obtain ⟨v', hv', hr⟩ := forall₂_mem_right k4 (List.mem_of_mem_head? v1)
    obtain ⟨j, _, hj⟩ := mapRes_mem p5 hv'
    rw [(reopened_same hr).2.1, mainVar_axes hj]
  rw [hax] at v2
  have hl := mapRes_ok_length _ _ _ v2
  have hniv : ((axisHeader o).2.length : Int) = (axisHeader o).1 := by
    cases hret.regular with
    | one g hw =>
      change (g.XNAME.length : Int) = g.NIV
      rw [hw.xname, hw.niv]
      rfl
    | more g hw => exact hw.xname
  rw [f.2.2.2.1] at g1
  refine ⟨c, out, o', h2, h3, h5, by omega, fun i s s' hs hs' => ?_⟩
  have hi := (List.getElem?_eq_some_iff.1 hs').1
  have hx : axes[i]? = some (axes[i]'(by omega)) := List.getElem?_eq_getElem _
  obtain ⟨xn, e1, e2⟩ := g2 i _ hx
  rw [Nat.zero_add, f.2.2.2.2.1, hs] at e1
  injection e1 with e1
  subst e1
  have hb := mapRes_get v2 hx hs'
  rw [← k2]
  rcases e2 with ⟨e2, e3⟩ | ⟨e1, t, e2, e3, e4⟩
  · exact .inl (axis_bestName (hret.names.1 _ (List.mem_of_getElem? hs)) e2 e3 hb)
  · refine .inr ⟨?_, t, ?_, axis_bestName (by simp) e3 e4 hb⟩
    · unfold TimeAsked at e1 ⊢
      rwa [k0.1, k0.2.1, k2] at e1
    · rw [← k0.2.1]
      exact timeGiven_of k0.2.2 e2

/-- C109 fails: the name of an axis never comes back as it was, it always gets longer. If the units, or `Not known`, are
in the name at most once. -/
theorem C109_never_fails {cb : UnitsCallback} {xname name u : Str} (h : AxisNamedBack cb xname name)
    (hu : strip (axisUnits cb xname) = u) (hne : u ≠ []) (hp : '(' ∉ u ∧ ')' ∉ u)
    (honce : ¬ Occurs ("(".toList ++ u ++ ")".toList) xname ∨ ∃ a b, xname = a ++ ("(".toList ++ u ++ ")".toList) ++ b ∧
      ¬ Occurs ("(".toList ++ u ++ ")".toList) a ∧ ¬ Occurs ("(".toList ++ u ++ ")".toList) b) :
    xname.length < name.length := by
  obtain ⟨h1, h2⟩ := h u hu hne hp.1 hp.2
  rcases honce with hn | ⟨a, b, e, ha, hb⟩
  · rw [h1 hn]
    simp
  · rw [h2 a b e ha hb, e]
    simp
    omega

/-- C109, a case: the units that follow a name get one more blank in front of them. -/
theorem C109_blank {n u name : Str} (h : AxisNamedBack none (n ++ " (".toList ++ u ++ ")".toList) name)
    (hn : '\n' ∉ n ∧ '(' ∉ n) (hu : u ≠ []) (hs : strip u = u) (hp : ∀ c ∈ u, c ≠ '(' ∧ c ≠ ')' ∧ c ≠ '\n') :
    name = n ++ "  (".toList ++ u ++ ")".toList := by
  have e := C47_split n u hn.1 hu hp
  have ea : axisUnits none (n ++ " (".toList ++ u ++ ")".toList) = u := by
    unfold axisUnits
    rw [e, if_neg (by simpa using hu)]
    rfl
  have := (h u (by rw [ea, hs]) hu (fun hm => (hp _ hm).1 rfl) (fun hm => (hp _ hm).2.1 rfl)).2 (n ++ [' ']) [] (by simp)
    (fun ⟨x, y, hxy⟩ => by
      have : '(' ∈ n ++ [' '] := by rw [hxy]; simp
      rcases List.mem_append.1 this with h | h
      · exact hn.2 h
      · simp at h)
    (fun ⟨x, y, hxy⟩ => by simp at hxy)
  rw [this]
  simp

/-- C109, a case: a name without units gets units that are not known. -/
theorem C109_not_known {xname name : Str} {cb : UnitsCallback} (h : AxisNamedBack cb xname name)
    (hn : (varAndUnits cb xname).2 = none) (hb : '(' ∉ xname) : name = xname ++ " (Not known)".toList := by
  have ea : axisUnits cb xname = "Not known".toList := by
    unfold axisUnits
    rw [hn]
    rfl
  have := (h "Not known".toList (by rw [ea]; decide) (by decide) (by decide) (by decide)).1 (fun ⟨x, y, hxy⟩ =>
    hb (by rw [hxy]; simp))
  rw [this]
  simp


/-- C109 fails as well for a time axis when nobody is asked: its name is replaced by `time ()`. -/
theorem C109_time_fails {n u name : Str} (h : TimeNamedBack none [] (n ++ " (".toList ++ u ++ ")".toList) name)
    (hn : '\n' ∉ n) (hu : u ≠ []) (hs : strip u = u) (hp : ∀ c ∈ u, c ≠ '(' ∧ c ≠ ')' ∧ c ≠ '\n') :
    name = "time () (".toList ++ u ++ ")".toList := by
  have ea : axisUnits none (n ++ " (".toList ++ u ++ ")".toList) = u := by
    unfold axisUnits
    rw [C47_split n u hn hu hp, if_neg (by simpa using hu)]
    rfl
  have := (h u (by rw [if_pos rfl, ea, hs]) hu (fun hm => (hp _ hm).1 rfl) (fun hm => (hp _ hm).2.1 rfl)).1
    (fun ⟨x, y, hxy⟩ => by
      have h1 := congrArg List.length hxy
      have h2 : 0 < u.length := List.length_pos_iff.2 hu
      have h3 : x.length ≤ 4 := by simp at h1; omega
      have h4 := congrArg (fun l => l.drop x.length) hxy
      simp only [List.append_assoc, List.drop_left] at h4
      rcases u with _ | ⟨c, u⟩
      · exact hu rfl
      · have hc := (hp c (by simp)).2.1
        have hx : x.length = 0 ∨ x.length = 1 ∨ x.length = 2 ∨ x.length = 3 ∨ x.length = 4 := by omega
        rcases hx with e | e | e | e | e <;> rw [e] at h4 <;> simp at h4)
  rw [this]
  simp

/-! ### Concrete cases -/

theorem Ex.trip_axes {o o1 : Obj Int} {count : Nat} (ht : Ex.tripTest o count = true)
    (hr : readFile intCodec 0 (Ex.tripText o) = .ok o1)
    (hc : count = (varHeader o1).NV.toNat + (Spec.auxCount o1).toNat) (h10 : o1.FFI = 1001 ∨ o1.FFI = 2010)
    (hret : Returnable Nappy.Ex.toXEnv [] Ex.gapX o1) :
    ∃ c out o', (convertNCToNA (emitFile (fun _ => intCodec) exTable) (Ex.tripApi o) exArgs).calls = [c] ∧
      fileOf (fun _ => intCodec) exTable c = .ok out ∧ readFile intCodec 0 out.text = .ok o' ∧
      (axisHeader o').2.length = (axisHeader o1).2.length ∧
      ∀ (i : Nat) s s', (axisHeader o1).2[i]? = some s → (axisHeader o').2[i]? = some s' →
        AxisNamedBack none s s' ∨ (TimeAsked Nappy.Ex.toXEnv s ∧
          ∃ t, TimeGiven Nappy.Ex.toNCArgs.timeUnits Nappy.Ex.toNCArgs.timeWarning [] Nappy.Ex.toXEnv.timeMatch t ∧
            TimeNamedBack none t s s') := by
  unfold Ex.tripTest at ht
  split at ht
  · rename_i name nc hnc
    simp only [Bool.and_eq_true, decide_eq_true_eq] at ht
    obtain ⟨⟨⟨t1, t2⟩, t3⟩, t4⟩ := ht
    have hopen : (Ex.tripApi o).openNC exArgs.ncFile = .ok (Ex.reopen nc) := by
      simp only [Ex.tripApi, hnc]
    exact C109_partial (fun _ => intCodec) exTable (nc := nc) hnc rfl rfl
      List.nodup_nil hr (by omega) (Ex.tripApi o) exArgs hret (Ex.namesFree_of t2) hopen (Ex.reopen_file nc t3) rfl rfl
      rfl (by intro k h; cases h) (fun _ _ => ⟨true, rfl⟩) (q := id) Nappy.Ex.intCodec_lawful (by decide) rfl rfl rfl rfl
      (fun d hd => by
        rw [hd] at t4
        simp only [Bool.and_eq_true] at t4
        have hs := Ex.textsFit_of t4.1
        refine ⟨⟨hs.dates, hs.names, hs.comments⟩, ?_, fun e => by omega⟩
        have t5 := t4.2
        split at t5
        · exact ⟨_, by assumption, Ex.header_of t5⟩
        · cases t5)
  · cases ht

/-- The hypotheses of `C109_partial` are met by a file with the axes `Time` and `Height`. -/
example : ∃ c out o', (convertNCToNA (emitFile (fun _ => intCodec) exTable) (Ex.tripApi (.o2010 Ex.gapGrid)) exArgs).calls
      = [c] ∧ fileOf (fun _ => intCodec) exTable c = .ok out ∧ readFile intCodec 0 out.text = .ok o' ∧
    (axisHeader o').2.length = 2 := by
  obtain ⟨o1, h1, h2, h3, _, _, h7, h6⟩ := Ex.gapGrid_read
  obtain ⟨c, out, o', k1, k2, k3, k4, _⟩ := Ex.trip_axes (by decide +kernel) h1 h2 (.inr h3) h6
  rw [h7] at k4
  exact ⟨c, out, o', k1, k2, k3, k4⟩

/-- The hypotheses of `C109_never_fails`, `C109_blank` and `C109_not_known` are met. -/
example : strip (axisUnits none "Height (km)".toList) = "km".toList ∧ (varAndUnits none "Height".toList).2 = none ∧
    ¬ Occurs ("(".toList ++ "km".toList ++ ")".toList) "Height".toList := by
  refine ⟨by decide +kernel, by decide +kernel, ?_⟩
  rintro ⟨x, y, h⟩
  have : '(' ∈ "Height".toList := by rw [h]; simp
  revert this
  decide

/-- A file with the axes `Time` and `Height (km)`. -/
def Ex.axesFile : Obj Int :=
  .o2010 { Ex.gapGrid with XNAME := ["Time".toList, "Height (km)".toList] }

/-- What has to be computed for `C109_fails`. -/
def Ex.axesTest : Bool :=
  match Ex.tripNC Ex.axesFile, readFile intCodec 0 (Ex.tripText Ex.axesFile) with
  | .ok p, .ok o => decide (((Ex.reopen p.2).vars.map XVar.name).Nodup) &&
      decide ((axisHeader o).2 = ["Time".toList, "Height (km)".toList]) &&
      (match (convertNCToNA (emitFile (fun _ => intCodec) exTable) (Ex.tripApi Ex.axesFile) exArgs).calls with
        | [c] => (match fileOf (fun _ => intCodec) exTable c with
          | .ok out => (match readFile intCodec 0 out.text with
            | .ok o' => decide ((axisHeader o').2 = ["time () (Not known)".toList, "Height  (km)".toList])
            | _ => false)
          | _ => false)
        | _ => false)
  | _, _ => false

/-- C109 fails: the names of the axes of a file are not those that it had before. -/
theorem C109_fails : ∃ ncName nc o c out o',
    convertNAToNC intCodec Nappy.Ex.toXEnv [] "a.na".toList (Ex.tripText Ex.axesFile) Nappy.Ex.toNCArgs
      = .ok (ncName, nc) ∧
    ReopenedFile Ex.gapX.isNaN nc (Ex.reopen nc) ∧
    (Ex.tripApi Ex.axesFile).openNC exArgs.ncFile = .ok (Ex.reopen nc) ∧
    readFile intCodec 0 (Ex.tripText Ex.axesFile) = .ok o ∧
    (convertNCToNA (emitFile (fun _ => intCodec) exTable) (Ex.tripApi Ex.axesFile) exArgs).calls = [c] ∧
    fileOf (fun _ => intCodec) exTable c = .ok out ∧ readFile intCodec 0 out.text = .ok o' ∧
    (axisHeader o).2 = ["Time".toList, "Height (km)".toList] ∧
    (axisHeader o').2 = ["time () (Not known)".toList, "Height  (km)".toList] := by
  have ht : Ex.axesTest = true := by decide +kernel
  unfold Ex.axesTest at ht
  split at ht
  · rename_i p o h1 h2
    simp only [Bool.and_eq_true, decide_eq_true_eq] at ht
    obtain ⟨⟨t1, t2⟩, t3⟩ := ht
    split at t3
    · rename_i c h3
      split at t3
      · rename_i out h4
        split at t3
        · rename_i o' h5
          exact ⟨p.1, p.2, o, c, out, o', h1, Ex.reopen_file p.2 t1, by simp only [Ex.tripApi, h1], h2, h3, h4, h5, t2,
            of_decide_eq_true t3⟩
        · cases t3
      · cases t3
    · cases t3
  · cases ht

end Nappy.Props
