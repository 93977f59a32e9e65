import Verif.BackLemmas
import Verif.Props.ToXarray

/-! C67: from NASA Ames to variables and back. -/

namespace Nappy.Props

open Nappy Spec

variable {F : Type}

section
variable {env : ToXEnv F} {cenv : CollectEnv F} {user : Dict (PyVal F)} {tu : Option Str} {o : Obj F}
  {r : ToXResult F} {show_ : Tree F → Str} {fuel : Nat}

/-- The institution and the comment are texts. -/
theorem attrs_text (h : toXarray env user .all .all tu o = .ok r) (hu : (user.map Prod.fst).Nodup) (k : String)
    (hk : k = "institution" ∨ k = "comment") (v : PyVal F) (hv : (k, v) ∈ r.attrs) : ∃ t, v = .str t := by
  obtain ⟨n, axes, is, g1, g2, _⟩ := toXarray_parts h
  obtain ⟨m, hm, _, gn, g3⟩ := globalAttrs_facts g2 hu
  have e := get_of_mem gn hv
  rw [g3] at e
  obtain ⟨hist, _, hm⟩ := ok_of_bind hm
  injection hm with hm
  subst hm
  rcases hk with rfl | rfl
  · have : some (PyVal.str (institutionAttr n.c)) = some v := e
    injection this with this
    exact ⟨_, this.symm⟩
  · have : some (PyVal.str (commentAttr env.hp n.com)) = some v := e
    injection this with this
    exact ⟨_, this.symm⟩

/-- What the collector makes of all the variables of a file: one dictionary. `main` and `aux` are the two lists it
chooses. -/
theorem one_pass {n : NAView F} (hview : o.view env.add = .ok n) (h : toXarray env user .all .all tu o = .ok r)
    (hattrs : (user.map Prod.fst).Nodup)
    (hleft : NamesLeft env.cb env.renames n.XNAME (n.v.VNAME ++ (n.aux.map AuxHdr.ANAME).getD []))
    (hloc : LocalKnown cenv.localNc)
    (hax : ∀ l, AxisValues env.add o l → ∀ x ∈ l, HasNumber cenv.x.eq x) (hn : NamesFree (r.vars ++ r.aux))
    (hu : ∀ ax, ax.values ≠ [] → ∃ u, cenv.x.uniform ax = .ok u) (h1 : 1 ≤ (axisHeader o).1)
    (h4 : (axisHeader o).1 ≤ 4) (hne : r.vars ≠ []) (hl : r.vars.length ≤ 1000) (hla : r.aux.length ≤ 1000)
    {main aux : List (XVar F)} (hma : main ++ aux = r.vars ++ r.aux)
    (hcase : (main = r.vars ∧ aux = r.aux ∧ 2 ≤ (axisHeader o).1) ∨ (aux = [] ∧ (axisHeader o).1 = 1)) :
    ∃ d a, convertDicts cenv show_ none r.attrs fuel (r.vars ++ r.aux) = .ok (some [d]) ∧
      analyse cenv.x none (r.vars ++ r.aux) = .ok (some a) ∧ collectDict cenv r.attrs a = .ok d ∧ a.main = main ∧
      a.aux = aux ∧ a.ffi = backFormat (axisHeader o).1.toNat := by
  obtain ⟨axes, l, x1, x2, x3, x4, x5, x6, x7, x8⟩ := made_vars h
  have hval : ∀ a ∈ axes, ∃ x ∈ a.values, cenv.x.eq x x = true := by
    intro a ha
    refine hax l x1 a.values ?_
    have : a.values ∈ axes.map XAxis.values := List.mem_map.2 ⟨a, ha, rfl⟩
    rw [x2] at this
    exact List.mem_of_mem_take this
  have hval' : ∀ a ∈ axes, a.values ≠ [] := by
    intro a ha e
    obtain ⟨x, hx, _⟩ := hval a ha
    rw [e] at hx
    cases hx
  have hnemain : main ≠ [] := by
    rcases hcase with ⟨e, _⟩ | ⟨e, _⟩
    · rw [e]; exact hne
    · rw [e, List.append_nil] at hma
      rw [hma]
      intro e
      exact hne (List.append_eq_nil_iff.1 e).1
  have key : (∀ v ∈ main, v.axes = axes) ∧ (∀ v ∈ aux, v.axes = axes.take 1) ∧ (aux = [] ∨ 2 ≤ axes.length) ∧
      reorderBy XVar.naNumber main = .ok main ∧ reorderBy XVar.naAuxNumber aux = .ok aux := by
    rcases hcase with ⟨rfl, rfl, e⟩ | ⟨rfl, e⟩
    · have hrm := reorderBy_numbered (o := []) x6 (by simp) hl
      have hra := reorderBy_numbered (o := []) x8 (by simp) hla
      rw [List.append_nil] at hrm hra
      exact ⟨x4, x5, .inr (by omega), hrm, hra⟩
    · rw [List.append_nil] at hma
      subst hma
      refine ⟨fun v hv => ?_, by simp, .inl rfl, reorderBy_numbered x6 x7 hl,
        reorderBy_numbered (m := []) (o := []) (by simp) (by simp) (by simp)⟩
      rcases List.mem_append.1 hv with hv | hv
      · exact x4 v hv
      · rw [x5 v hv, List.take_of_length_le (by omega)]
  obtain ⟨k1, k2, k3, k4, k5⟩ := key
  have ha := analyse_back hval (fun a ha => hu a (hval' a (List.mem_of_getElem? ha))) (by omega) (by omega) hnemain k1
    k2 k3 k4 k5
  rw [hma] at ha
  have hconv := convert_back (show_ := show_) (fuel := fuel) (fun v hv => by
      unfold XVar.rank
      rcases List.mem_append.1 hv with hv | hv
      · rw [x4 v hv]; omega
      · rw [x5 v hv, List.length_take]; omega)
    (by rw [List.length_append]; omega) hn ha rfl
  obtain ⟨b1, b2⟩ := made_names hview h hleft
  obtain ⟨v, vs, hmain⟩ : ∃ v vs, main = v :: vs := by
    cases hm : main with
    | nil => exact absurd hm hnemain
    | cons v vs => exact ⟨v, vs, rfl⟩
  obtain ⟨ax0, more, hax0⟩ : ∃ ax0 more, axes = ax0 :: more := by
    cases hm : axes with
    | nil => rw [hm, List.length_nil] at x3; omega
    | cons v vs => exact ⟨v, vs, rfl⟩
  have hvaxes : ∀ a ∈ axes, ∃ m, a.bestName = .ok m := by
    obtain ⟨w, hw⟩ := List.exists_mem_of_ne_nil _ hne
    rw [← x4 w hw]
    exact b2 w hw
  have hform : backFormat axes.length ≠ 1020 ∧ backFormat axes.length ≠ 2110 ∧ backFormat axes.length ≠ 2310 := by
    unfold backFormat
    split
    · decide
    · refine ⟨?_, ?_, ?_⟩ <;> omega
  obtain ⟨d, hd⟩ := collectDict_ok (env := cenv) (globals := r.attrs)
    (a := { main := main, aux := aux, zero := [], unused := [], niv := axes.length, ffi := backFormat axes.length,
            nvpm := none }) (v := v) (vs := vs) (ax0 := ax0) (more := more) hmain
    (by rw [k1 v (by rw [hmain]; simp), hax0]) (hval' ax0 (by rw [hax0]; simp))
    (by show ∀ w ∈ main ++ aux, _; rw [hma]; exact b1) rfl
    (by rw [k1 v (by rw [hmain]; simp)]; exact hvaxes) hform.1 hform.2.1 hform.2.2 hloc
    (fun v hv => .inl (attrs_text h hattrs _ (.inl rfl) v hv))
    (fun v hv => .inl (attrs_text h hattrs _ (.inr rfl) v hv))
  exact ⟨d, _, convertDicts_one hconv hd, ha, hd, rfl, rfl, by rw [x3]⟩

theorem top_kept (h : toXarray env user .all .all tu o = .ok r) (hu : (user.map Prod.fst).Nodup)
    {a : Analysis F} {d : Dict (PyVal F)} (hc : collectDict cenv r.attrs a = .ok d) :
    TopLineKept d o.common.FFI := by
  refine ⟨(C62_fails h hu hc).2.2.2, o.common.NLHEAD, ?_⟩
  obtain ⟨n, axes, is, g1, g2, _⟩ := toXarray_parts h
  obtain ⟨m, hm, _, gn, _⟩ := globalAttrs_facts g2 hu
  obtain ⟨p⟩ := collectDict_parts hc
  rw [p.rest _ (by decide)]
  exact globGo_set "NLHEAD" "no_of_nasa_ames_header_lines" (· = some (.int o.common.NLHEAD)) (by simp [setters]) _
    (fun _ _ g => globStep_plain g (by decide) rfl) _ _ _ p.globs gn (C63_fails h hu).2.2.2.2.2.2.1

/-- Data that a unit scale factor and the replacement of `NaN` leave alone. -/
theorem written_same {mul : F → F → F} {cb : UnitsCallback} {name : Str} {miss scale : F} {data : Tree F} {v : XVar F}
    {xe : XEnv F} (h : Carries mul cb name miss scale data v) (hs : ∀ x, mul x scale = x) (hd : DataFits v)
    (hnan : NoNaN xe.isNaN (leaves data)) : written xe v = data := by
  have e := (C64_missing_partial h hs).1
  unfold written
  unfold DataFits at hd
  rw [e] at hd ⊢
  exact mapTree_same hd (fun x hx => by rw [hnan x hx]; rfl)

theorem leaves_col (col : List F) : leaves (.lst (col.map .val)) = col := by
  rw [leaves_lst, List.map_map]
  induction col with
  | nil => rfl
  | cons x t ih =>
    rw [List.map_cons, List.flatten_cons, ih]
    rfl

theorem map_eq_of {α β : Type} {l : List α} {m : List β} {g : α → β} (hl : l.length = m.length)
    (h : ∀ (i : Nat) a, l[i]? = some a → m[i]? = some (g a)) : l.map g = m := by
  refine List.ext_getElem? fun i => ?_
  rw [List.getElem?_map]
  cases hv : l[i]? with
  | none =>
    have := List.getElem?_eq_none_iff.1 hv
    rw [List.getElem?_eq_none (by omega)]
    rfl
  | some a => rw [h i a hv]; rfl

/-- C67, in part: format 1001. One file comes back, with the same values of the independent variable, the same
number of variables with the same values and missing values, in the same order; the scale factors are one. No
variable may be named like the axis (see `C67_name_fails`), no value may be `NaN`, which is replaced by the missing
value, and there may be no more than 1000 variables. The texts made from names and comments have to fit into a file.
What is missing: other formats, see `C67_1010_fails`. -/
theorem C67_1001_partial {f : NA1001 F} (hw : Wf1001 f) (hs : UnitScales env.mul f.v.VSCAL)
    (hx : HasNumber cenv.x.eq f.X) (hnan : ∀ col ∈ f.V, NoNaN cenv.x.isNaN col) (hl : f.v.NV ≤ 1000)
    (hleft : NamesLeft env.cb env.renames f.XNAME f.v.VNAME) (hloc : LocalKnown cenv.localNc)
    (hu : (user.map Prod.fst).Nodup) (h : toXarray env user .all .all tu (.o1001 f) = .ok r)
    (hn : NamesFree (r.vars ++ r.aux)) (hun : ∀ ax, ax.values ≠ [] → ∃ u, cenv.x.uniform ax = .ok u) :
    ∃ d, convertDicts cenv show_ none r.attrs fuel (r.vars ++ r.aux) = .ok (some [d]) ∧
      (TextsFit d → ∃ f', Describes d (.o1001 f') ∧ Wf1001 f' ∧ f'.X = f.X ∧ f'.V = f.V ∧
        f'.v.VMISS = f.v.VMISS ∧ f'.v.NV = f.v.NV ∧ ∀ s ∈ f'.v.VSCAL, s = cenv.x.one) := by
  obtain ⟨l1, l2⟩ := C64_values h
  have haux : r.aux = [] := List.length_eq_zero_iff.1 (C64_aux h).1
  have hlen : (r.vars.length : Int) = f.v.NV := by
    have := hw.vars.pos
    rw [l1]
    show (f.v.NV.toNat : Int) = _
    omega
  obtain ⟨d, a, e1, e2, e3, e4, e5, e6⟩ := one_pass (show_ := show_) (fuel := fuel) (main := r.vars) (aux := [])
    rfl h hu (by simpa using hleft) hloc (fun l hl x hxl => by
      rw [show l = [f.X] from hl] at hxl
      rw [List.mem_singleton.1 hxl]
      exact hx) hn hun (by show (1 : Int) ≤ f.NIV; rw [hw.niv]; decide) (by show f.NIV ≤ (4 : Int); rw [hw.niv]; decide)
    (fun e => by rw [e] at hlen; have := hw.vars.pos; simp at hlen; omega) (by omega) (by rw [haux]; simp)
    (by rw [haux]) (.inr ⟨rfl, hw.niv⟩)
  have htop := top_kept h hu e3
  have hffi : a.ffi = 1001 := by
    rw [e6]
    show backFormat f.NIV.toNat = _
    rw [hw.niv]
    rfl
  rw [show (Obj.o1001 f).common.FFI = 1001 from hw.ffi] at htop
  have hfit : ∀ v ∈ a.main, DataFits v := by
    intro v hv
    rw [e4] at hv
    obtain ⟨i, hi⟩ := List.getElem?_of_mem hv
    exact (l2 i v hi).2.2.2.1
  refine ⟨d, e1, fun ht => ?_⟩
  obtain ⟨f', k1, k2, ⟨v, k3, k4, _⟩, k5, k6, k7, k8⟩ := C59_1001 e2 hffi e3 hfit ht htop
  have hmem : v ∈ r.vars := by
    rw [← e4]
    exact List.mem_of_mem_head? (by rw [k3]; rfl)
  refine ⟨f', k1, k2, ?_, ?_, ?_, ?_, ?_⟩
  · obtain ⟨i, hi⟩ := List.getElem?_of_mem hmem
    obtain ⟨_, _, _, _, l, q1, q2⟩ := l2 i v hi
    rw [k4, show l = [f.X] from q1] at q2
    have : (axisHeader (Obj.o1001 f)).1.toNat = 1 := by show f.NIV.toNat = 1; rw [hw.niv]; rfl
    rw [this] at q2
    injection q2
  · rw [k5, e4]
    refine map_eq_of (by have := hw.data.1; omega) fun i w hv => ?_
    obtain ⟨⟨name, miss, scale, data, q1, q2, q3⟩, _, _, q4, _⟩ := l2 i w hv
    rw [mainArray, Option.map_eq_some_iff] at q2
    obtain ⟨col, q5, q6⟩ := q2
    subst q6
    rw [written_same q3 (hs scale (List.mem_of_getElem? q1.2.2)) q4
      (by rw [leaves_col]; exact hnan col (List.mem_of_getElem? q5)), leaves_col, q5]
  · rw [k6, e4]
    refine map_eq_of (by have := hw.vars.vmiss; omega) fun i w hv => ?_
    obtain ⟨⟨name, miss, scale, data, q1, q2, q3⟩, _⟩ := l2 i w hv
    rw [q3.2.1, show f.v.VMISS[i]? = some miss from q1.2.1]
    rfl
  · have := k2.vars.vmiss
    rw [← this, k6, List.length_map, e4, hlen]
  · intro s hs
    rw [k7] at hs
    obtain ⟨_, _, rfl⟩ := List.mem_map.1 hs
    rfl

/-- C67, in part: formats 2010, 3010 and 4010. One file comes back, with the same values on all axes once the evenly
spaced ones are filled up, and the same main and auxiliary variables. Differences of axis values have to be exact.
What is missing: as for `C67_1001_partial`; with rounding the axes may differ, see `C46_rounding_fails`. -/
theorem C67_2010_partial {f s : NA2010 F} (hw : Wf2010 f) (hs : UnitScales env.mul (f.v.VSCAL ++ f.aux.ASCAL))
    (hnorm : normalizeIndVars env.add f = .ok s) (hx : ∀ x ∈ s.X0 :: s.XB, HasNumber cenv.x.eq x)
    (hnan : ∀ col ∈ f.V, ∀ t ∈ col, NoNaN cenv.x.isNaN (leaves t)) (hnana : ∀ col ∈ f.A, NoNaN cenv.x.isNaN col)
    (hl : f.v.NV ≤ 1000) (hla : f.aux.NAUXV ≤ 1000) (hex : ExactSteps cenv.x env.add)
    (hleft : NamesLeft env.cb env.renames f.XNAME (f.v.VNAME ++ f.aux.ANAME)) (hloc : LocalKnown cenv.localNc)
    (hu : (user.map Prod.fst).Nodup) (h : toXarray env user .all .all tu (.o2010 f) = .ok r)
    (hn : NamesFree (r.vars ++ r.aux)) (hun : ∀ ax, ax.values ≠ [] → ∃ u, cenv.x.uniform ax = .ok u) :
    ∃ d, convertDicts cenv show_ none r.attrs fuel (r.vars ++ r.aux) = .ok (some [d]) ∧
      (TextsFit d → ∃ f' s', Describes d (.o2010 f') ∧ Wf2010 f' ∧ f'.c.FFI = f.c.FFI ∧
        normalizeIndVars env.add f' = .ok s' ∧ s'.X0 = s.X0 ∧ s'.XB = s.XB ∧ f'.V = f.V ∧ f'.A = f.A ∧
        f'.v.VMISS = f.v.VMISS ∧ f'.v.NV = f.v.NV ∧ f'.aux.AMISS = f.aux.AMISS ∧ f'.aux.NAUXV = f.aux.NAUXV ∧
        ∀ s ∈ f'.v.VSCAL ++ f'.aux.ASCAL, s = cenv.x.one) := by
  obtain ⟨l1, l2⟩ := C64_values h
  obtain ⟨l3, l4⟩ := C64_aux h
  have hpos := hw.vars.pos
  have hlen : (r.vars.length : Int) = f.v.NV := by
    rw [l1]
    show (f.v.NV.toNat : Int) = _
    omega
  have hlena : (r.aux.length : Int) = f.aux.NAUXV := by
    have := hw.aux.nonneg
    rw [l3]
    show (f.aux.NAUXV.toNat : Int) = _
    omega
  have hniv : (2 : Int) ≤ f.NIV ∧ f.NIV ≤ 4 := by rcases hw.ffi with e | e | e <;> omega
  have haxv : ∀ l, AxisValues env.add (.o2010 f) l → l = s.X0 :: s.XB := by
    rintro l ⟨s1, g1, g2⟩
    rw [hnorm] at g1
    injection g1 with g1
    rw [g2, g1]
  have hsf : s = { f with XB := s.XB } := by
    obtain ⟨s1, g1, _, g3⟩ := normalize_ok env.add hw
    rw [hnorm] at g1
    injection g1 with g1
    subst g1
    exact g3
  have hview : Obj.view env.add (.o2010 f) = .ok { c := s.c, NIV := s.NIV, XNAME := s.XNAME, X := s.X0 :: s.XB,
                                                   v := s.v, V := s.V.map .lst, aux := some s.aux, A := s.A,
                                                   com := s.com } := by
    simp only [Obj.view, hnorm, ok_bind]
  obtain ⟨d, a, e1, e2, e3, e4, e5, e6⟩ := one_pass (show_ := show_) (fuel := fuel) (main := r.vars) (aux := r.aux)
    hview h hu (by rw [hsf]; exact hleft) hloc (fun l hl x hxl => by
      rw [haxv l hl] at hxl
      exact hx x hxl) hn hun (by show (1 : Int) ≤ f.NIV; omega) hniv.2
    (fun e => by rw [e] at hlen; simp at hlen; omega) (by omega) (by omega) rfl
    (.inl ⟨rfl, rfl, hniv.1⟩)
  have htop := top_kept h hu e3
  have hffi : a.ffi = f.c.FFI := by
    rw [e6]
    show backFormat f.NIV.toNat = _
    unfold backFormat
    rw [if_neg (by omega)]
    rcases hw.ffi with e | e | e <;> omega
  have hmem : ∀ v ∈ r.vars ++ r.aux, DataFits v := by
    intro v hv
    rcases List.mem_append.1 hv with hv | hv
    · obtain ⟨i, hi⟩ := List.getElem?_of_mem hv
      exact (l2 i v hi).2.2.2.1
    · obtain ⟨i, hi⟩ := List.getElem?_of_mem hv
      exact (l4 i v hi).2.2.2.1
  have hvals : ∀ v ∈ r.vars, v.axes.map XAxis.values = s.X0 :: s.XB := by
    intro v hv
    obtain ⟨i, hi⟩ := List.getElem?_of_mem hv
    obtain ⟨_, _, _, _, l, q1, q2⟩ := l2 i v hi
    rw [q2, haxv l q1, List.take_of_length_le]
    obtain ⟨s1, g1, g2, g3⟩ := normalize_ok env.add hw
    rw [hnorm] at g1
    injection g1 with g1
    subst g1
    have e1 := congrArg List.length g2
    simp only [List.length_map] at e1
    have := hw.nx
    show _ ≤ f.NIV.toNat
    rw [List.length_cons, e1]
    omega
  refine ⟨d, e1, fun ht => ?_⟩
  obtain ⟨f', k1, k2, k3, ⟨v, ax0, more, k4, k5, k6, _, _, _, k7⟩, k8, k9, k10, k11, k12, k13, _⟩ :=
    C59_2010 e2 (by rcases hw.ffi with e | e | e <;> omega) e3
      (by rw [e4, e5]; exact hmem)
      (fun v hv ax hax e => by
        rw [e4] at hv
        have : ax.values ∈ s.X0 :: s.XB := by rw [← hvals v hv]; exact List.mem_map.2 ⟨ax, hax, rfl⟩
        obtain ⟨x, hx, _⟩ := hx _ this
        rw [e] at hx
        cases hx)
      ht (by rw [hffi]; exact htop)
  have hmemv : v ∈ r.vars := by
    rw [← e4]
    exact List.mem_of_mem_head? (by rw [k4]; rfl)
  have hv := hvals v hmemv
  rw [k5, List.map_cons] at hv
  injection hv with hv1 hv2
  refine ⟨f', _, k1, k2, by rw [k3, hffi], k7 env.add hex, by rw [← hv1, ← k6], hv2, ?_, ?_, ?_, ?_, ?_, ?_, ?_⟩
  · rw [k8, e4]
    refine map_eq_of (by have := hw.data.1; omega) fun i w hv => ?_
    obtain ⟨⟨name, miss, scale, data, q1, q2, q3⟩, _, _, q4, _⟩ := l2 i w hv
    rw [mainArray, Option.map_eq_some_iff] at q2
    obtain ⟨col, q5, q6⟩ := q2
    subst q6
    rw [written_same q3 (hs scale (List.mem_append_left _ (List.mem_of_getElem? q1.2.2))) q4 ?_, q5]
    · rfl
    · intro x hx
      rw [leaves_lst] at hx
      obtain ⟨l, hl, hx⟩ := List.mem_flatten.1 hx
      obtain ⟨t, ht, rfl⟩ := List.mem_map.1 hl
      exact hnan col (List.mem_of_getElem? q5) t ht x hx
  · rw [k9, e5]
    refine map_eq_of (by have := hw.aux_data.1; omega) fun i w hv => ?_
    obtain ⟨⟨name, miss, scale, col, q1, q2, q3⟩, _, _, q4, _⟩ := l4 i w hv
    rw [written_same q3 (hs scale (List.mem_append_right _ ?_)) q4
      (by rw [leaves_col]; exact hnana col (List.mem_of_getElem? q2)), leaves_col]
    · exact q2
    · exact List.mem_of_getElem? q1.2.2.2
  · rw [k10, e4]
    refine map_eq_of (by have := hw.vars.vmiss; omega) fun i w hv => ?_
    obtain ⟨⟨name, miss, scale, data, q1, q2, q3⟩, _⟩ := l2 i w hv
    rw [q3.2.1, show f.v.VMISS[i]? = some miss from q1.2.1]
    rfl
  · have := k2.vars.vmiss
    rw [← this, k10, List.length_map, e4, hlen]
  · rw [k12, e5]
    refine map_eq_of (by have := hw.aux.amiss; omega) fun i w hv => ?_
    obtain ⟨⟨name, miss, scale, data, q1, q2, q3⟩, _⟩ := l4 i w hv
    obtain ⟨m, m1, m2⟩ := q1.2.1
    injection m2 with m2
    subst m2
    rw [q3.2.1, m1]
    rfl
  · have := k2.aux.amiss
    rw [← this, k12, List.length_map, e5, hlena]
  · intro s hs
    rcases List.mem_append.1 hs with hs | hs
    · rw [k11] at hs
      obtain ⟨_, _, rfl⟩ := List.mem_map.1 hs
      rfl
    · rw [k13] at hs
      obtain ⟨_, _, rfl⟩ := List.mem_map.1 hs
      rfl

/-- C67 fails for format 1010, always: the file that comes back still calls itself 1010, but has no auxiliary
variables; they have become variables like the others. -/
theorem C67_1010_fails {f : NA1010 F} (hw : Wf1010 f) (hx : HasNumber cenv.x.eq f.X) (hl : f.v.NV ≤ 1000)
    (hla : f.aux.NAUXV ≤ 1000)
    (hleft : NamesLeft env.cb env.renames f.XNAME (f.v.VNAME ++ f.aux.ANAME)) (hloc : LocalKnown cenv.localNc)
    (hu : (user.map Prod.fst).Nodup) (h : toXarray env user .all .all tu (.o1010 f) = .ok r)
    (hn : NamesFree (r.vars ++ r.aux)) (hun : ∀ ax, ax.values ≠ [] → ∃ u, cenv.x.uniform ax = .ok u) :
    ∃ d, convertDicts cenv show_ none r.attrs fuel (r.vars ++ r.aux) = .ok (some [d]) ∧
      dictGet? d "FFI" = some (.int 1010) ∧ dictGet? d "NAUXV" = some (.int 0) ∧
      dictGet? d "NV" = some (.int (f.v.NV + f.aux.NAUXV)) := by
  obtain ⟨l1, _⟩ := C64_values h
  obtain ⟨l3, _⟩ := C64_aux h
  have hlen : (r.vars.length : Int) = f.v.NV := by
    have := hw.vars.pos
    rw [l1]
    show (f.v.NV.toNat : Int) = _
    omega
  have hlena : (r.aux.length : Int) = f.aux.NAUXV := by
    have := hw.aux.nonneg
    rw [l3]
    show (f.aux.NAUXV.toNat : Int) = _
    omega
  obtain ⟨d, a, e1, e2, e3, e4, e5, e6⟩ := one_pass (show_ := show_) (fuel := fuel) (main := r.vars ++ r.aux)
    (aux := []) rfl h hu hleft hloc (fun l hl x hxl => by
      rw [show l = [f.X] from hl] at hxl
      rw [List.mem_singleton.1 hxl]
      exact hx) hn hun (by show (1 : Int) ≤ f.NIV; rw [hw.niv]; decide) (by show f.NIV ≤ (4 : Int); rw [hw.niv]; decide)
    (fun e => by rw [e] at hlen; have := hw.vars.pos; simp at hlen; omega) (by omega) (by omega)
    (by simp) (.inr ⟨rfl, hw.niv⟩)
  have htop := (top_kept h hu e3).1
  rw [show (Obj.o1010 f).common.FFI = 1010 from hw.ffi] at htop
  have hffi : a.ffi = 1001 := by
    rw [e6]
    show backFormat f.NIV.toNat = _
    rw [hw.niv]
    rfl
  obtain ⟨p⟩ := collectDict_parts e3
  obtain ⟨q1, q2, x, q3, q4⟩ := p.vars_ok
  obtain ⟨_, _, _, q5, _⟩ := indSection_parts q2
  have hi := (q5 (by omega) (by omega)).1
  rw [e5] at q3
  injection q3 with q3
  have hz : p.s.aux = [] := by rw [q4, hi, ← q3]; rfl
  have hv := mapRes_ok_length _ _ _ q1
  rw [e4, List.length_append] at hv
  refine ⟨d, e1, htop, ?_, ?_⟩
  · have := p.get "NAUXV" (by simp [varItems]) (by decide) (by decide) (v := .int p.s.aux.length) (by simp [dictGet?])
    rw [this, hz]
    rfl
  · have := p.get "NV" (by simp [varItems]) (by decide) (by decide) (v := .int p.s.vars.length) (by simp [dictGet?])
    rw [this, hv]
    congr 2
    omega

end

/-- For witnesses: a file converted to variables and back, in whole. -/
theorem _root_.Nappy.Ex.trip_of {env : ToXEnv Int} {cenv : CollectEnv Int} {o : Obj Int}
    {P : ToXResult Int → Option (List (Dict (PyVal Int))) → Bool}
    (h : (match toXarray env [] .all .all none o with
      | .ok r => (match convertDicts cenv (fun _ => []) none r.attrs 10 (r.vars ++ r.aux) with
        | .ok ds => P r ds
        | _ => false)
      | _ => false) = true) :
    ∃ r ds, toXarray env [] .all .all none o = .ok r ∧
      convertDicts cenv (fun _ => []) none r.attrs 10 (r.vars ++ r.aux) = .ok ds ∧ P r ds = true := by
  split at h
  · next r hr =>
    split at h
    · next ds hd => exact ⟨r, ds, hr, hd, h⟩
    · cases h
  · cases h

/-- C67 fails if a variable is named like the independent variable: it is missing in the file that comes back. -/
theorem C67_name_fails :
    ∃ r ds, toXarray Ex.toXEnv [] .all .all none
        (.o1001 { Ex.d1001 with v := { Ex.vars with VSCAL := [1, 1], VNAME := ["Seconds".toList, "Temp (K)".toList] } })
        = .ok r ∧
      convertDicts Ex.collectEnv (fun _ => []) none r.attrs 10 (r.vars ++ r.aux) = .ok ds ∧
      (decide (ds.map (List.map (fun d => (dictGet? d "VNAME").bind Ex.strs)) = some [some ["temp (K)".toList]])) =
        true :=
  Ex.trip_of (P := fun _ ds => decide (ds.map (List.map (fun d => (dictGet? d "VNAME").bind Ex.strs)) =
    some [some ["temp (K)".toList]])) (by decide +kernel)

/-- C67 fails for the names: the capital letters are gone. -/
theorem C67_capitals_fails :
    ∃ r ds, toXarray Ex.toXEnv [] .all .all none (.o1001 Ex.d1001) = .ok r ∧
      convertDicts Ex.collectEnv (fun _ => []) none r.attrs 10 (r.vars ++ r.aux) = .ok ds ∧
      (decide (ds.map (List.map (fun d => (dictGet? d "VNAME").bind Ex.strs)) =
        some [some ["o3 (ppb)".toList, "temp".toList]])) = true :=
  Ex.trip_of (P := fun _ ds => decide (ds.map (List.map (fun d => (dictGet? d "VNAME").bind Ex.strs)) =
    some [some ["o3 (ppb)".toList, "temp".toList]])) (by decide +kernel)

/-- `NamesFree` as a test. -/
def _root_.Nappy.Ex.namesFreeB (vars : List (XVar Int)) : Bool :=
  vars.all fun v => vars.all fun w => w.axes.all fun ax => decide (v.name ≠ ax.name)

theorem _root_.Nappy.Ex.namesFree_of {vars : List (XVar Int)} (h : Ex.namesFreeB vars = true) : NamesFree vars := by
  intro v hv w hw ax hax
  simp only [Ex.namesFreeB, List.all_eq_true] at h
  exact of_decide_eq_true (h v hv w hw ax hax)

def _root_.Nappy.Ex.tripB (r : ToXResult Int) (ds : Option (List (Dict (PyVal Int)))) : Bool :=
  Ex.namesFreeB (r.vars ++ r.aux) && ds.any (List.all · Ex.fitsB)

/-- Examples that meet the assumptions of C67. -/
def _root_.Nappy.Ex.unit1001 : NA1001 Int := { Ex.d1001 with v := { Ex.vars with VSCAL := [1, 1] } }
def _root_.Nappy.Ex.unit2010 : NA2010 Int := { Ex.d2010 with v := { Ex.vars with VSCAL := [1, 1] } }

example : Wf1001 Ex.unit1001 ∧ UnitScales Ex.toXEnv.mul Ex.unit1001.v.VSCAL ∧
    HasNumber Ex.collectEnv.x.eq Ex.unit1001.X ∧ (∀ col ∈ Ex.unit1001.V, NoNaN Ex.collectEnv.x.isNaN col) ∧
    NamesLeft Ex.toXEnv.cb Ex.toXEnv.renames Ex.unit1001.XNAME Ex.unit1001.v.VNAME ∧
    LocalKnown Ex.collectEnv.localNc ∧ (∀ ax, ax.values ≠ [] → ∃ u, Ex.collectEnv.x.uniform ax = .ok u) ∧
    ∃ r ds, toXarray Ex.toXEnv [] .all .all none (.o1001 Ex.unit1001) = .ok r ∧
      convertDicts Ex.collectEnv (fun _ => []) none r.attrs 10 (r.vars ++ r.aux) = .ok ds ∧ Ex.tripB r ds = true := by
  refine ⟨{ Ex.wf1001 with vars := ⟨by decide, rfl, rfl, rfl, by decide⟩ }, ?_, ⟨0, by decide, by decide⟩,
    by unfold NoNaN; decide, ⟨by decide, by decide +kernel, by intro kv h; cases h⟩,
    (by intro k h; cases h), fun _ _ => ⟨true, rfl⟩, Ex.trip_of (by decide +kernel)⟩
  intro s hs x
  have : s = 1 := by revert s; decide
  rw [this]
  exact Int.mul_one x

example : Wf2010 Ex.unit2010 ∧ UnitScales Ex.toXEnv.mul (Ex.unit2010.v.VSCAL ++ Ex.unit2010.aux.ASCAL) ∧
    normalizeIndVars Ex.toXEnv.add Ex.unit2010 = .ok Ex.unit2010 ∧
    (∀ x ∈ Ex.unit2010.X0 :: Ex.unit2010.XB, HasNumber Ex.collectEnv.x.eq x) ∧
    (∀ col ∈ Ex.unit2010.V, ∀ t ∈ col, NoNaN Ex.collectEnv.x.isNaN (leaves t)) ∧
    (∀ col ∈ Ex.unit2010.A, NoNaN Ex.collectEnv.x.isNaN col) ∧ ExactSteps Ex.collectEnv.x Ex.toXEnv.add ∧
    NamesLeft Ex.toXEnv.cb Ex.toXEnv.renames Ex.unit2010.XNAME (Ex.unit2010.v.VNAME ++ Ex.unit2010.aux.ANAME) ∧
    ∃ r ds, toXarray Ex.toXEnv [] .all .all none (.o2010 Ex.unit2010) = .ok r ∧
      convertDicts Ex.collectEnv (fun _ => []) none r.attrs 10 (r.vars ++ r.aux) = .ok ds ∧ Ex.tripB r ds = true := by
  refine ⟨{ Ex.wf2010 with vars := ⟨by decide, rfl, rfl, rfl, by decide⟩ }, ?_, by rfl,
    by unfold HasNumber; decide, fun _ _ _ _ _ _ => rfl, fun _ _ _ _ => rfl, ?_,
    ⟨by decide, by decide +kernel, by intro kv h; cases h⟩, Ex.trip_of (by decide +kernel)⟩
  · intro s hs x
    have : s = 1 := by revert s; decide
    rw [this]
    exact Int.mul_one x
  · intro x y d h
    have h : y - x = d := of_decide_eq_true h
    show x + d = y
    omega

/-- The assumptions of `C67_1010_fails`. -/
example : Wf1010 Ex.d1010 ∧ HasNumber Ex.collectEnv.x.eq Ex.d1010.X ∧
    NamesLeft Ex.toXEnv.cb Ex.toXEnv.renames Ex.d1010.XNAME (Ex.d1010.v.VNAME ++ Ex.d1010.aux.ANAME) ∧
    ∃ r ds, toXarray Ex.toXEnv [] .all .all none (.o1010 Ex.d1010) = .ok r ∧
      convertDicts Ex.collectEnv (fun _ => []) none r.attrs 10 (r.vars ++ r.aux) = .ok ds ∧ Ex.tripB r ds = true :=
  ⟨Ex.wf1010, ⟨0, by decide, by decide⟩, ⟨by decide, by decide +kernel, by intro kv h; cases h⟩,
    Ex.trip_of (by decide +kernel)⟩

end Nappy.Props
